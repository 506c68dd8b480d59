import Verif.Lemmas.Ake
import Verif.Spec.Toy
/-! C28 to C32 and C67: the OTRv3 key exchange. -/

namespace Otrr.Props
open Otrr Otrr.Spec Otrr.AKE

/-! ## A concrete exchange, used for examples and counterexamples -/

namespace ToyAke

def bob : DSAKeypair := ⟨⟨23, 2 ^ 159 + 1, 5, 7⟩, 7⟩
def alice : DSAKeypair := ⟨⟨23, 2 ^ 159 + 3, 6, 9⟩, 9⟩

theorem goodDsa (p q g y : Nat) (hq : 2 ^ 159 ≤ q) (hq' : q < 2 ^ 160) (hp : p < 256) (hg : g < 256) (hy : y < 256) :
    GoodDsa toyEnv ⟨⟨p, q, g, y⟩, y⟩ where
  key := ⟨rfl, hq, hq', ⟨1, by decide, by simpa using hp⟩, ⟨1, by decide, by simpa using hg⟩,
    ⟨1, by decide, by simpa using hy⟩⟩
  sig d := by
    have h1 : beNat d % q < q := Nat.mod_lt _ (by omega)
    have h2 : beNat (dsaPrehash d q) = beNat d % q := by
      rw [dsaPrehash, beNat_beBytes_of_lt]
      have : (256 : Nat) ^ 20 = 2 ^ 160 := by decide
      omega
    constructor
    · show 0 < beNat (dsaPrehash d q) + 1 ∧ beNat (dsaPrehash d q) + 1 < 2 ^ 160
      rw [h2]
      omega
    · show 0 < y + 1 ∧ y + 1 < 2 ^ 160
      omega
  correct d := by simp [toyEnv, DSAKeypair.sign]

theorem good_bob : GoodDsa toyEnv bob := goodDsa _ _ _ _ (by decide) (by decide) (by decide) (by decide) (by decide)
theorem good_alice : GoodDsa toyEnv alice := goodDsa _ _ _ _ (by decide) (by decide) (by decide) (by decide) (by decide)

def mC (x : Res EncodedMessageType) : DHCommitMessage := match x with | .ok (.dhCommit m) => m | _ => default
def mK (x : Res EncodedMessageType) : DHKeyMessage := match x with | .ok (.dhKey m) => m | _ => default
def mR (x : Res EncodedMessageType) : RevealSignatureMessage := match x with | .ok (.revealSignature m) => m | _ => default
def mS (x : Res (AKEMaterial × EncodedMessageType)) : SignatureMessage :=
  match x with | .ok (_, .signature m) => m | _ => default
def mA (x : Res (AKEMaterial × EncodedMessageType)) : AKEMaterial :=
  match x with | .ok (a, _) => a | _ => ⟨[], default, 0, default⟩
def mB (x : Res AKEMaterial) : AKEMaterial := match x with | .ok a => a | _ => ⟨[], default, 0, default⟩

/-- Bob begins, Alice answers, Bob reveals, Alice signs, Bob accepts. -/
@[irreducible] def commit : DHCommitMessage := mC (initiate toyEnv (smallRand 1) .none).1
@[irreducible] def b1 : AKEState := (initiate toyEnv (smallRand 1) .none).2
@[irreducible] def key : DHKeyMessage := mK (handleDhCommit toyEnv commit (smallRand 2) .none).1
@[irreducible] def a1 : AKEState := (handleDhCommit toyEnv commit (smallRand 2) .none).2
@[irreducible] def reveal : RevealSignatureMessage := mR (handleDhKey toyEnv (some bob) key b1).1
@[irreducible] def b2 : AKEState := (handleDhKey toyEnv (some bob) key b1).2
@[irreducible] def sig : SignatureMessage := mS (handleRevealSignature toyEnv (some alice) reveal a1).1
@[irreducible] def matA : AKEMaterial := mA (handleRevealSignature toyEnv (some alice) reveal a1).1
@[irreducible] def matB : AKEMaterial := mB (handleSignature toyEnv sig b2).1

theorem r1 : initiate toyEnv (smallRand 1) .none = (.ok (.dhCommit commit), b1) := by decide +kernel
theorem r2 : handleDhCommit toyEnv commit (smallRand 2) .none = (.ok (.dhKey key), a1) := by decide +kernel
theorem r3 : handleDhKey toyEnv (some bob) key b1 = (.ok (.revealSignature reveal), b2) := by decide +kernel
theorem r4 : handleRevealSignature toyEnv (some alice) reveal a1 = (.ok (matA, .signature sig), .none) := by
  decide +kernel
theorem r5 : handleSignature toyEnv sig b2 = (.ok matB, .none) := by decide +kernel

/-- Bob begins again before answering Alice, who keeps the first commitment. -/
@[irreducible] def commit' : DHCommitMessage := mC (initiate toyEnv (smallRand 3) b1).1
@[irreducible] def b1' : AKEState := (initiate toyEnv (smallRand 3) b1).2
@[irreducible] def a1' : AKEState := (handleDhCommit toyEnv commit' (smallRand 4) a1).2
@[irreducible] def reveal' : RevealSignatureMessage := mR (handleDhKey toyEnv (some bob) key b1').1
@[irreducible] def b2' : AKEState := (handleDhKey toyEnv (some bob) key b1').2

/-- Alice begins at the same time as Bob. -/
@[irreducible] def commitA : DHCommitMessage := mC (initiate toyEnv (smallRand 4) .none).1
@[irreducible] def c1 : AKEState := (initiate toyEnv (smallRand 4) .none).2
@[irreducible] def keyA : DHKeyMessage := mK (handleDhCommit toyEnv commit' (smallRand 2) c1).1
@[irreducible] def c2 : AKEState := (handleDhCommit toyEnv commit' (smallRand 2) c1).2
theorem rA : initiate toyEnv (smallRand 4) .none = (.ok (.dhCommit commitA), c1) := by decide +kernel

theorem fits : FitsMpi toyEnv.dh.p := ⟨1, by decide, by decide⟩

end ToyAke

open ToyAke

/-! ## C28: agreement -/

theorem fits_mono {a b : Nat} (h : FitsMpi b) (hab : a ≤ b) : FitsMpi a := by
  obtain ⟨k, hk, hb⟩ := h
  exact ⟨k, hk, by omega⟩

theorem pub_lt {G : DHGroup} (hp : 0 < G.p) (x : Nat) : (DH.Keypair.new G x).pub < G.p := Nat.mod_lt _ hp

theorem initiate_inv {E : Env} {rnd : Rand} {s s' : AKEState} {m : DHCommitMessage}
    (h : initiate E rnd s = (.ok (.dhCommit m), s')) :
    ∃ x r, s' = .awaitingDHKey (DH.Keypair.new E.dh x) r ∧ m = dhCommitOf E (DH.Keypair.new E.dh x) r := by
  rw [initiate, transact_ok] at h
  simp only [Res.ok.injEq, Prod.mk.injEq, EncodedMessageType.dhCommit.injEq] at h
  exact ⟨_, _, h.2.symm, h.1.symm⟩

theorem dhCommit_inv {E : Env} {rnd : Rand} {s s' : AKEState} {m : DHCommitMessage} {k : DHKeyMessage}
    (hn : NotAwaitingReveal s) (h : handleDhCommit E m rnd s = (.ok (.dhKey k), s')) :
    ∃ x, s' = .awaitingRevealSignature (DH.Keypair.new E.dh x) m.gxEncrypted m.gxHashed ∧
      k = ⟨(DH.Keypair.new E.dh x).pub⟩ := by
  rw [handleDhCommit, transact_ok] at h
  cases s with
  | none =>
    simp only [dhCommitFromInitial, Res.ok.injEq, Prod.mk.injEq, EncodedMessageType.dhKey.injEq] at h
    exact ⟨_, h.2.symm, h.1.symm⟩
  | awaitingDHKey kp r =>
    simp only at h
    split at h
    · simp at h
    · simp only [dhCommitFromInitial, Res.ok.injEq, Prod.mk.injEq, EncodedMessageType.dhKey.injEq] at h
      exact ⟨_, h.2.symm, h.1.symm⟩
  | awaitingRevealSignature kp e h' => exact absurd rfl (hn kp e h')
  | awaitingSignature kp gy s prev =>
    simp only [Res.ok.injEq, Prod.mk.injEq, EncodedMessageType.dhKey.injEq] at h
    exact ⟨_, h.2.symm, h.1.symm⟩

theorem dataSecrets_mirror {E : Env} (a b : Nat) (x y : Bytes) :
    dataSecrets E (DH.Keypair.new E.dh a) (DH.Keypair.new E.dh b).pub = .ok ⟨x, y⟩ →
    dataSecrets E (DH.Keypair.new E.dh b) (DH.Keypair.new E.dh a).pub = .ok ⟨y, x⟩ := by
  unfold dataSecrets
  rw [C64_shared_secret E.dh a b]
  unfold DataSecrets.derive
  generalize (DH.Keypair.new E.dh a).pub = u
  generalize (DH.Keypair.new E.dh b).pub = v
  generalize wMpi _ = w
  intro h
  split at h
  · simp at h
  · rename_i hne
    rw [if_neg (fun h => hne h.symm)]
    by_cases hgt : u > v
    · have : ¬ v > u := by omega
      simp only [if_pos hgt, if_neg this, Res.ok.injEq, DataSecrets.mk.injEq] at h ⊢
      exact ⟨h.2, h.1⟩
    · have : v > u := by omega
      simp only [if_neg hgt, if_pos this, Res.ok.injEq, DataSecrets.mk.injEq] at h ⊢
      exact ⟨h.2, h.1⟩

/-- The core of C28: all messages of an exchange between `bob`, who began, and `alice`. -/
theorem exchange {E : Env} (hp : FitsMpi E.dh.p) (hp0 : 0 < E.dh.p) {alice bob : DSAKeypair}
    (ga : GoodDsa E alice) (gb : GoodDsa E bob) (x y : Nat) (r : Bytes)
    (hx : InRange E.dh (DH.Keypair.new E.dh x).pub) (hy : InRange E.dh (DH.Keypair.new E.dh y).pub) :
    let kb := DH.Keypair.new E.dh x
    let ka := DH.Keypair.new E.dh y
    ∃ reveal b2, handleDhKey E (some bob) ⟨ka.pub⟩ (.awaitingDHKey kb r) = (.ok (.revealSignature reveal), b2) ∧
      (anyNonzero (dhCommitOf E kb r).gxHashed = true → anyNonzero reveal.sigMac = true →
      ∃ matA sig, handleRevealSignature E (some alice) reveal
          (.awaitingRevealSignature ka (dhCommitOf E kb r).gxEncrypted (dhCommitOf E kb r).gxHashed) =
          (.ok (matA, .signature sig), .none) ∧ (anyNonzero sig.sigMac = true →
        ∃ matB, handleSignature E sig b2 = (.ok matB, .none) ∧ Agree3 E alice bob matA matB ∧
          matA.ourDh = ka ∧ matB.ourDh = kb)) := by
  intro kb ka
  have hs : kb.sharedSecret E.dh ka.pub = ka.sharedSecret E.dh kb.pub := C64_shared_secret E.dh x y
  have hmpi : readMpi (wMpi kb.pub) = .ok (kb.pub, []) := by
    have := readMpi_w (fits_mpiOk (fits_mono hp (Nat.le_of_lt (pub_lt hp0 x)))) []
    simpa using this
  have hy' : DH.verifyPublicKey E.dh ka.pub = .ok () := verifyPublicKey_ok.mpr hy
  have hx' : DH.verifyPublicKey E.dh kb.pub = .ok () := verifyPublicKey_ok.mpr hx
  let s := kb.sharedSecret E.dh ka.pub
  let sec := AKESecrets.derive E (wMpi s)
  let encB := aesCrypt E sec.c zeroNonce (identityOf E bob sec.m1 kb.pub ka.pub)
  let rv : RevealSignatureMessage := ⟨r, encB, identityMac E sec.m2 encB⟩
  let encA := aesCrypt E sec.cp zeroNonce (identityOf E alice sec.m1p ka.pub kb.pub)
  refine ⟨rv, .awaitingSignature kb ka.pub s rv, ?_, fun hn hn' => ?_⟩
  · rw [handleDhKey, transact_ok]
    simp only [answerDhKey, hy', Res.orErr, hostKeypair, Res.bind_ok, Res.pure_def]
    rfl
  refine ⟨⟨sec.ssid, ka, kb.pub, bob.pk⟩, ⟨encA, identityMac E sec.m2p encA⟩, ?_, fun hn'' => ?_⟩
  · rw [handleRevealSignature, transact_ok]
    have h0 : aesCrypt E rv.key zeroNonce (dhCommitOf E kb r).gxEncrypted = wMpi kb.pub := aesCrypt_twice ..
    have h1 : compareBytes (E.sha256 (wMpi kb.pub)) (dhCommitOf E kb r).gxHashed = .ok () :=
      compareBytes_ok.mpr ⟨rfl, hn⟩
    have h2 : runDec readMpi (wMpi kb.pub) = .ok kb.pub := runDec_ok.mpr ⟨_, hmpi⟩
    have h3 : compareBytes (identityMac E sec.m2 rv.sigEncrypted) rv.sigMac = .ok () := compareBytes_ok.mpr ⟨rfl, hn'⟩
    have h4 : aesCrypt E sec.c zeroNonce rv.sigEncrypted = identityOf E bob sec.m1 kb.pub ka.pub := aesCrypt_twice ..
    have h5 := runDec_ok.mpr ⟨_, readSigned_w gb sec.m1 kb.pub ka.pub []⟩
    rw [List.append_nil] at h5
    have h6 := dsaValidate_ok.mpr (gb.correct (E.hmacSha256 sec.m1 (signedData kb.pub ka.pub bob.pk 1)))
    simp only [answerRevealSignature, h0, h1, h2, hx', Res.orErr, Res.bind_ok, ← hs]
    simp only [show AKESecrets.derive E (wMpi (kb.sharedSecret E.dh ka.pub)) = sec from rfl, h3, h4, h5, h6,
      Res.bind_ok, hostKeypair, Res.pure_def]
    rfl
  refine ⟨⟨sec.ssid, kb, ka.pub, alice.pk⟩, ?_, ?_, rfl, rfl⟩
  rotate_left
  · exact ⟨rfl, ⟨rfl, rfl⟩, ⟨rfl, rfl⟩, fun u v => ⟨dataSecrets_mirror y x u v, dataSecrets_mirror x y v u⟩⟩
  · rw [handleSignature, transact_ok]
    have h3 : compareBytes (identityMac E sec.m2p encA) (identityMac E sec.m2p encA) = .ok () :=
      compareBytes_ok.mpr ⟨rfl, hn''⟩
    have h4 : aesCrypt E sec.cp zeroNonce encA = identityOf E alice sec.m1p ka.pub kb.pub := aesCrypt_twice ..
    have h5 : runDec (do let x ← readSigned E; decDone; pure x) (identityOf E alice sec.m1p ka.pub kb.pub) =
        .ok (alice.pk, 1, alice.sign E (E.hmacSha256 sec.m1p (signedData ka.pub kb.pub alice.pk 1))) :=
      runDec_ok.mpr ⟨[], by
        have := readSigned_w ga sec.m1p ka.pub kb.pub []
        rw [List.append_nil] at this
        rw [Dec.bind_ok this]
        rfl⟩
    have h6 := dsaValidate_ok.mpr (ga.correct (E.hmacSha256 sec.m1p (signedData ka.pub kb.pub alice.pk 1)))
    simp only [acceptSignature]
    simp only [show AKESecrets.derive E (wMpi s) = sec from rfl, h3, h4, h5, h6, Res.orErr, Res.bind_ok, Res.pure_def]

/-- C28: Bob begins an exchange in any state; Alice, who is not already waiting for a Reveal Signature
message, answers his D-H Commit message with a D-H Key message.  When every message is delivered unmodified,
all of them are accepted and the clients agree.  Assumed: the DSA key pairs work, both D-H public keys are
in range, and the hash and the MACs are not all zero. -/
theorem C28_agree {E : Env} (hp : FitsMpi E.dh.p) (hp0 : 0 < E.dh.p) {alice bob : DSAKeypair}
    (ga : GoodDsa E alice) (gb : GoodDsa E bob) {rb ra : Rand} {b0 b1 a0 a1 : AKEState} {commit : DHCommitMessage}
    {key : DHKeyMessage}
    (hb : initiate E rb b0 = (.ok (.dhCommit commit), b1))
    (ha0 : NotAwaitingReveal a0) (ha : handleDhCommit E commit ra a0 = (.ok (.dhKey key), a1))
    (hx : ∀ kp r, b1 = .awaitingDHKey kp r → InRange E.dh kp.pub) (hy : InRange E.dh key.gy) :
    ∃ reveal b2, handleDhKey E (some bob) key b1 = (.ok (.revealSignature reveal), b2) ∧
      (anyNonzero commit.gxHashed = true → anyNonzero reveal.sigMac = true →
      ∃ matA sig, handleRevealSignature E (some alice) reveal a1 = (.ok (matA, .signature sig), .none) ∧
        (anyNonzero sig.sigMac = true →
        ∃ matB, handleSignature E sig b2 = (.ok matB, .none) ∧ Agree3 E alice bob matA matB)) := by
  obtain ⟨x, r, rfl, rfl⟩ := initiate_inv hb
  obtain ⟨y, rfl, rfl⟩ := dhCommit_inv ha0 ha
  obtain ⟨reveal, b2, h1, h2⟩ := exchange hp hp0 ga gb x y r (hx _ _ rfl) hy
  refine ⟨reveal, b2, h1, fun hn hn' => ?_⟩
  obtain ⟨matA, sig, h3, h4⟩ := h2 hn hn'
  refine ⟨matA, sig, h3, fun hn'' => ?_⟩
  obtain ⟨matB, h5, h6, -⟩ := h4 hn''
  exact ⟨matB, h5, h6⟩

/-- C28: whenever all four messages of an exchange are accepted, the clients agree, and the sessions they
start are the two ends of one conversation (the starting point of C37). -/
theorem C28_session {E : Env} (hp : FitsMpi E.dh.p) (hp0 : 0 < E.dh.p) {alice bob : DSAKeypair}
    (ga : GoodDsa E alice) (gb : GoodDsa E bob) {rb ra : Rand} {b0 b1 b2 b3 a0 a1 a2 : AKEState}
    {commit : DHCommitMessage} {key : DHKeyMessage} {reveal : RevealSignatureMessage} {sig : SignatureMessage}
    {matA matB : AKEMaterial}
    (h1 : initiate E rb b0 = (.ok (.dhCommit commit), b1))
    (ha0 : NotAwaitingReveal a0) (h2 : handleDhCommit E commit ra a0 = (.ok (.dhKey key), a1))
    (h3 : handleDhKey E (some bob) key b1 = (.ok (.revealSignature reveal), b2))
    (h4 : handleRevealSignature E (some alice) reveal a1 = (.ok (matA, .signature sig), a2))
    (h5 : handleSignature E sig b2 = (.ok matB, b3)) :
    Agree3 E alice bob matA matB ∧ ∀ ta tb rnd rnd' a b,
      Enc3.new E ta tb matA.ourDh matA.theirDh rnd = .ok a → Enc3.new E tb ta matB.ourDh matB.theirDh rnd' = .ok b →
      Reach3 E ⟨a, b, [], []⟩ := by
  obtain ⟨x, r, rfl, rfl⟩ := initiate_inv h1
  obtain ⟨y, rfl, rfl⟩ := dhCommit_inv ha0 h2
  have hy : InRange E.dh (DH.Keypair.new E.dh y).pub := by
    rw [handleDhKey, transact_ok] at h3
    obtain ⟨_, -, h, -⟩ := answerDhKey_ok h3
    exact h
  have h4' := h4
  rw [handleRevealSignature, transact_ok] at h4'
  simp only [Res.bind_eq_ok, Res.pure_def, Res.ok.injEq, Prod.mk.injEq] at h4'
  obtain ⟨_, h4', rfl, -⟩ := h4'
  obtain ⟨gx, pk, keyid, sg, dsa, rest, hd, e1, e2, e3, e4, e5, e6, e7, e8, e9⟩ := answerRevealSignature_ok h4'
  have hr : reveal.key = r := by
    rw [handleDhKey, transact_ok] at h3
    obtain ⟨_, -, -, h⟩ := answerDhKey_ok h3
    simp only [Prod.mk.injEq, EncodedMessageType.revealSignature.injEq] at h
    rw [h.1]
  have hgx : gx = (DH.Keypair.new E.dh x).pub := by
    have h0 : aesCrypt E reveal.key zeroNonce (dhCommitOf E (DH.Keypair.new E.dh x) r).gxEncrypted =
        wMpi (DH.Keypair.new E.dh x).pub := by
      rw [hr]
      exact aesCrypt_twice ..
    have := readMpi_w (fits_mpiOk (fits_mono hp (Nat.le_of_lt (pub_lt hp0 x)))) []
    rw [List.append_nil, ← h0, e3] at this
    simp only [Res.ok.injEq, Prod.mk.injEq] at this
    exact this.1
  subst hgx
  obtain ⟨reveal', b2', f1, f2⟩ := exchange hp hp0 ga gb x y r e4 hy
  rw [h3] at f1
  simp only [Prod.mk.injEq, Res.ok.injEq, EncodedMessageType.revealSignature.injEq] at f1
  obtain ⟨rfl, rfl⟩ := f1
  have hmac : anyNonzero reveal.sigMac = true := by
    unfold answerRevealSignature at h4'
    simp only [Res.bind_eq_ok] at h4'
    obtain ⟨_, _, gx, q2, _, _, _, q4, _⟩ := h4'
    rw [Res.orErr_ok] at q4
    obtain ⟨q4, q5⟩ := compareBytes_ok.mp q4
    rw [← q4]
    exact q5
  obtain ⟨matA', sig', f3, f4⟩ := f2 e2 hmac
  rw [h4] at f3
  simp only [Prod.mk.injEq, Res.ok.injEq, EncodedMessageType.signature.injEq] at f3
  obtain ⟨⟨rfl, rfl⟩, rfl⟩ := f3
  have hmac' : anyNonzero sig.sigMac = true := by
    rw [handleSignature, transact_ok] at h5
    cases b2 with
    | awaitingSignature kp gy s prev =>
      simp only [Res.bind_eq_ok, acceptSignature] at h5
      obtain ⟨_, ⟨_, q, _⟩, _⟩ := h5
      rw [Res.orErr_ok] at q
      exact (compareBytes_ok.mp q).2
    | _ => simp at h5
  obtain ⟨matB', f5, f6, f7, f8⟩ := f4 hmac'
  rw [h5] at f5
  simp only [Prod.mk.injEq, Res.ok.injEq] at f5
  obtain ⟨rfl, rfl⟩ := f5
  refine ⟨f6, fun ta tb rnd rnd' a b ha hb => ?_⟩
  rw [f6.dh.1, f7, f8] at ha
  rw [f6.dh.2, f7, f8] at hb
  exact .start ha hb

theorem idle : NotAwaitingReveal .none := by
  intro _ _ _ h
  cases h

/-- The hypotheses of C28 are met by the toy exchange, and the agreed SSID is not trivial. -/
example : Agree3 toyEnv alice bob matA matB ∧ matA.ssid.length = 8 ∧ anyNonzero matA.ssid = true :=
  ⟨(C28_session fits (by decide) good_alice good_bob r1 idle r2 r3 r4 r5).1, by decide +kernel, by decide +kernel⟩

example : ∃ reveal b2, handleDhKey toyEnv (some bob) key b1 = (.ok (.revealSignature reveal), b2) ∧
    (anyNonzero commit.gxHashed = true → anyNonzero reveal.sigMac = true → ∃ matA sig,
      handleRevealSignature toyEnv (some alice) reveal a1 = (.ok (matA, .signature sig), .none) ∧
      (anyNonzero sig.sigMac = true → ∃ matB, handleSignature toyEnv sig b2 = (.ok matB, .none) ∧
        Agree3 toyEnv alice bob matA matB)) :=
  C28_agree fits (by decide) good_alice good_bob r1 idle r2
    (by
      intro kp r h
      have : b1 = .awaitingDHKey (DH.Keypair.generate toyEnv.dh ((smallRand 1).bytes [0] 192)) ((smallRand 1).bytes [1] 16) := by
        decide +kernel
      rw [this] at h
      simp only [AKEState.awaitingDHKey.injEq] at h
      rw [← h.1]
      unfold InRange
      decide +kernel)
    (by unfold InRange; decide +kernel)

/-! ## C29: authentication -/

/-- C29, the client that answered: session material comes out only if, earlier, a D-H Commit message was
received and answered with the D-H public key used now; the Reveal Signature message opens its commitment
to a D-H public key in range; and the encrypted identity is MAC'ed under the shared secret and signed, under
the reported long-term key, over both D-H public keys. -/
theorem C29_reveal {E : Env} {host : Option DSAKeypair} {h : List AkeEv} {s s' : AKEState}
    {m : RevealSignatureMessage} {mat : AKEMaterial} {reply : EncodedMessageType} (hl : AkeLife E h s)
    (hr : handleRevealSignature E host m s = (.ok (mat, reply), s')) :
    (∃ c, AkeEv.commit c (.ok (.dhKey ⟨mat.ourDh.pub⟩)) ∈ h ∧
      E.sha256 (aesCrypt E m.key (List.replicate 16 0) c.gxEncrypted) = c.gxHashed ∧
      StartsWithMpi (aesCrypt E m.key (List.replicate 16 0) c.gxEncrypted) mat.theirDh) ∧
    (∃ x, mat.ourDh = ⟨x, E.dh.g ^ x % E.dh.p⟩) ∧ InRange E.dh mat.theirDh ∧
    (let sec := mat.theirDh ^ mat.ourDh.priv % E.dh.p
    mat.ssid = (akeKey E 0 sec).take 8 ∧
    Authenticated E ((akeKey E 1 sec).take 16) 2 3 sec mat.theirDh mat.ourDh.pub mat.theirDsa m.sigEncrypted m.sigMac) := by
  have hi := life_inv hl
  rw [handleRevealSignature, transact_ok] at hr
  cases s with
  | awaitingRevealSignature kp enc hashed =>
    simp only [Res.bind_eq_ok, Res.pure_def, Res.ok.injEq, Prod.mk.injEq] at hr
    obtain ⟨_, hr, rfl, -⟩ := hr
    obtain ⟨gx, pk, keyid, sg, dsa, rest, hd, e1, e2, e3, e4, e5, ⟨rest', e6⟩, e7, rfl, e9⟩ := answerRevealSignature_ok hr
    obtain ⟨⟨x, rfl⟩, hi⟩ := hi
    refine ⟨⟨_, hi, e1, readMpi_starts e3⟩, ⟨x, rfl⟩, e4, rfl, e5.symm, keyid, sg, readSigned_keyid e6,
      runDec_ok.mpr ⟨_, e6⟩, e7⟩
  | _ => simp at hr

/-- C29, the client that began: session material comes out only if, earlier, a D-H Commit message for the
D-H public key used now was sent; the D-H Key message with the peer's D-H public key was received and
answered; that key is in range; and the encrypted identity is MAC'ed under the shared secret and signed,
under the reported long-term key, over both D-H public keys. -/
theorem C29_signature {E : Env} {h : List AkeEv} {s s' : AKEState}
    {m : SignatureMessage} {mat : AKEMaterial} (hl : AkeLife E h s)
    (hr : handleSignature E m s = (.ok mat, s')) :
    (∃ c, AkeEv.began c ∈ h ∧ c.gxHashed = E.sha256 (wMpi mat.ourDh.pub)) ∧
    (∃ r, AkeEv.key ⟨mat.theirDh⟩ (.ok (.revealSignature r)) ∈ h) ∧
    (∃ x, mat.ourDh = ⟨x, E.dh.g ^ x % E.dh.p⟩) ∧ InRange E.dh mat.theirDh ∧
    (let sec := mat.theirDh ^ mat.ourDh.priv % E.dh.p
    mat.ssid = (akeKey E 0 sec).take 8 ∧
    Authenticated E ((akeKey E 1 sec).drop 16) 4 5 sec mat.theirDh mat.ourDh.pub mat.theirDsa m.sigEncrypted m.sigMac) := by
  have hi := life_inv hl
  rw [handleSignature, transact_ok] at hr
  cases s with
  | awaitingSignature kp gy s prev =>
    simp only [Res.bind_eq_ok, Res.pure_def, Res.ok.injEq, Prod.mk.injEq] at hr
    obtain ⟨_, hr, rfl, -⟩ := hr
    obtain ⟨pk, keyid, sg, e5, e6, e7, rfl⟩ := acceptSignature_ok hr
    obtain ⟨⟨x, rfl⟩, ⟨r, hc⟩, hk, rfl, hg⟩ := hi
    exact ⟨⟨_, hc, rfl⟩, ⟨_, hk⟩, ⟨x, rfl⟩, hg, rfl, e5, keyid, sg, readSigned_keyid e6, runDec_ok.mpr ⟨_, e6⟩, e7⟩
  | _ => simp at hr

/-- The hypotheses of C29 are met by the toy exchange. -/
example : AkeLife toyEnv [.commit commit (.ok (.dhKey key))] a1 ∧
    handleRevealSignature toyEnv (some alice) reveal a1 = (.ok (matA, .signature sig), .none) :=
  ⟨.commit .start r2, r4⟩
example : AkeLife toyEnv [.began commit, .key key (.ok (.revealSignature reveal))] b2 ∧
    handleSignature toyEnv sig b2 = (.ok matB, .none) :=
  ⟨.key (.began .start r1) r3 (by simp), r5⟩

/-! ## C30: simultaneous D-H Commits -/

/-- C30: if both clients began an exchange, with different hashes, then exactly one of them yields with a
D-H Key message to the other's D-H Commit message; the other repeats its own and keeps waiting. -/
theorem C30_one_yields {E : Env} {ra rb ra' rb' : Rand} {a0 a1 b0 b1 : AKEState} {ca cb : DHCommitMessage}
    (ha : initiate E ra a0 = (.ok (.dhCommit ca), a1)) (hb : initiate E rb b0 = (.ok (.dhCommit cb), b1))
    (hne : ca.gxHashed ≠ cb.gxHashed) :
    ((∃ k a2, handleDhCommit E cb ra' a1 = (.ok (.dhKey k), a2)) ∧
      handleDhCommit E ca rb' b1 = (.ok (.dhCommit cb), b1)) ∨
    ((∃ k b2, handleDhCommit E ca rb' b1 = (.ok (.dhKey k), b2)) ∧
      handleDhCommit E cb ra' a1 = (.ok (.dhCommit ca), a1)) := by
  obtain ⟨x, r, rfl, rfl⟩ := initiate_inv ha
  obtain ⟨y, r', rfl, rfl⟩ := initiate_inv hb
  have hlen : (dhCommitOf E (DH.Keypair.new E.dh x) r).gxHashed.length =
      (dhCommitOf E (DH.Keypair.new E.dh y) r').gxHashed.length := by
    simp [dhCommitOf, E.sha256_len]
  have hn : beNat (dhCommitOf E (DH.Keypair.new E.dh x) r).gxHashed ≠
      beNat (dhCommitOf E (DH.Keypair.new E.dh y) r').gxHashed := fun h => hne (beNat_inj hlen h)
  rcases Nat.lt_or_gt_of_ne hn with hlt | hlt
  · left
    refine ⟨⟨⟨(DH.Keypair.generate E.dh (ra'.bytes [0] 192)).pub⟩, (dhCommitFromInitial E (dhCommitOf E (DH.Keypair.new E.dh y) r') ra').2, ?_⟩, ?_⟩
    · rw [handleDhCommit, transact_ok]
      simp only
      rw [if_neg (by simp only [dhCommitOf] at hlt ⊢; omega)]
      rfl
    · rw [handleDhCommit, transact_ok]
      simp only
      rw [if_pos (by simp only [dhCommitOf] at hlt ⊢; omega)]
  · right
    refine ⟨⟨⟨(DH.Keypair.generate E.dh (rb'.bytes [0] 192)).pub⟩, (dhCommitFromInitial E (dhCommitOf E (DH.Keypair.new E.dh x) r) rb').2, ?_⟩, ?_⟩
    · rw [handleDhCommit, transact_ok]
      simp only
      rw [if_neg (by simp only [dhCommitOf] at hlt ⊢; omega)]
      rfl
    · rw [handleDhCommit, transact_ok]
      simp only
      rw [if_pos (by simp only [dhCommitOf] at hlt ⊢; omega)]

/-- C30: after the other client (Bob) has won, the exchange runs to agreement: Alice, who also began,
yields; Bob's repeated D-H Commit message makes her repeat the same D-H Key message without any other
effect; Bob accepts the first and answers the second with the same Reveal Signature message. -/
theorem C30_completes {E : Env} (hp : FitsMpi E.dh.p) (hp0 : 0 < E.dh.p) {alice bob : DSAKeypair}
    (ga : GoodDsa E alice) (gb : GoodDsa E bob) {ra rb ra' ra'' rb' : Rand} {a0 a1 a2 b0 b1 : AKEState}
    {ca cb : DHCommitMessage} {key : DHKeyMessage}
    (ha : initiate E ra a0 = (.ok (.dhCommit ca), a1)) (hb : initiate E rb b0 = (.ok (.dhCommit cb), b1))
    (hwin : handleDhCommit E cb ra' a1 = (.ok (.dhKey key), a2)) (hne : ca.gxHashed ≠ cb.gxHashed)
    (hx : ∀ kp r, b1 = .awaitingDHKey kp r → InRange E.dh kp.pub) (hy : InRange E.dh key.gy) :
    handleDhCommit E ca rb' b1 = (.ok (.dhCommit cb), b1) ∧
    handleDhCommit E cb ra'' a2 = (.ok (.dhKey key), a2) ∧
    ∃ reveal b2, handleDhKey E (some bob) key b1 = (.ok (.revealSignature reveal), b2) ∧
      handleDhKey E (some bob) key b2 = (.ok (.revealSignature reveal), b2) ∧
      (anyNonzero cb.gxHashed = true → anyNonzero reveal.sigMac = true →
      ∃ matA sig, handleRevealSignature E (some alice) reveal a2 = (.ok (matA, .signature sig), .none) ∧
        (anyNonzero sig.sigMac = true →
        ∃ matB, handleSignature E sig b2 = (.ok matB, .none) ∧ Agree3 E alice bob matA matB)) := by
  have hn : NotAwaitingReveal a1 := by
    obtain ⟨x, r, rfl, -⟩ := initiate_inv ha
    intro _ _ _ h
    cases h
  refine ⟨?_, ?_, ?_⟩
  · rcases C30_one_yields (ra' := ra') (rb' := rb') ha hb hne with h | h
    · exact h.2
    · rw [h.2] at hwin
      simp at hwin
  · obtain ⟨y, rfl, rfl⟩ := dhCommit_inv hn hwin
    rw [handleDhCommit, transact_ok]
  · obtain ⟨reveal, b2, h1, h2⟩ := C28_agree hp hp0 ga gb hb hn hwin hx hy
    refine ⟨reveal, b2, h1, ?_, h2⟩
    obtain ⟨x, r, rfl, rfl⟩ := initiate_inv hb
    rw [handleDhKey, transact_ok] at h1
    obtain ⟨_, -, -, h⟩ := answerDhKey_ok h1
    simp only [Prod.mk.injEq, EncodedMessageType.revealSignature.injEq] at h
    obtain ⟨rfl, rfl⟩ := h
    rw [handleDhKey, transact_ok]
    simp

/-- The hypotheses of C30 are met by a toy exchange; here Bob's hash is the larger one. -/
example : initiate toyEnv (smallRand 4) .none = (.ok (.dhCommit commitA), c1) ∧
    initiate toyEnv (smallRand 3) b1 = (.ok (.dhCommit commit'), b1') ∧ commitA.gxHashed ≠ commit'.gxHashed ∧
    handleDhCommit toyEnv commitA (smallRand 9) b1' = (.ok (.dhCommit commit'), b1') ∧
    handleDhCommit toyEnv commit' (smallRand 2) c1 = (.ok (.dhKey keyA), c2) ∧ InRange toyEnv.dh keyA.gy ∧
    (∀ kp r, b1' = .awaitingDHKey kp r → InRange toyEnv.dh kp.pub) := by
  refine ⟨rA, by decide +kernel, by decide +kernel, by decide +kernel, by decide +kernel,
    by unfold InRange; decide +kernel, ?_⟩
  intro kp r h
  have : b1' = .awaitingDHKey (DH.Keypair.generate toyEnv.dh ((smallRand 3).bytes [0] 192)) ((smallRand 3).bytes [1] 16) := by
    decide +kernel
  rw [this] at h
  simp only [AKEState.awaitingDHKey.injEq] at h
  rw [← h.1]
  unfold InRange
  decide +kernel

/-! ## C31: unexpected messages -/

/-- C31: a message that is rejected or ignored leaves the exchange as it was. -/
theorem C31_unchanged {E : Env} {host : Option DSAKeypair} {s s' : AKEState} {e : OTRError} :
    (∀ m rnd, handleDhCommit E m rnd s = (.err e, s') → s' = s) ∧
    (∀ m, handleDhKey E host m s = (.err e, s') → s' = s) ∧
    (∀ m, handleRevealSignature E host m s = (.err e, s') → s' = s) ∧
    (∀ m, handleSignature E m s = (.err e, s') → s' = s) :=
  ⟨fun _ _ h => (transact_err.mp h).2, fun _ h => (transact_err.mp h).2, fun _ h => (transact_err.mp h).2,
    fun _ h => (transact_err.mp h).2⟩

/-- C31: which messages are expected.  D-H Key is, after a D-H Commit message was sent, and again with the
same value when it was answered; Reveal Signature is, after a D-H Key message was sent; Signature is, after
a Reveal Signature message was sent.  All others are ignored in the current state. -/
theorem C31_ignored {E : Env} {host : Option DSAKeypair} {s : AKEState} :
    (∀ m, (∀ kp r, s ≠ .awaitingDHKey kp r) → (∀ kp x p, s ≠ .awaitingSignature kp m.gy x p) →
      handleDhKey E host m s = (.err (.authenticationError .messageIgnored), s)) ∧
    (∀ m, NotAwaitingReveal s → handleRevealSignature E host m s = (.err (.authenticationError .messageIgnored), s)) ∧
    (∀ m, (∀ kp gy x p, s ≠ .awaitingSignature kp gy x p) →
      handleSignature E m s = (.err (.authenticationError .messageIgnored), s)) := by
  refine ⟨fun m h1 h2 => ?_, fun m h1 => ?_, fun m h1 => ?_⟩
  · cases s with
    | none => rfl
    | awaitingDHKey kp r => exact absurd rfl (h1 kp r)
    | awaitingRevealSignature kp e h => rfl
    | awaitingSignature kp gy x p =>
      rw [handleDhKey, transact_err]
      have : gy ≠ m.gy := by
        rintro rfl
        exact h2 kp x p rfl
      simp [this]
  · cases s with
    | awaitingRevealSignature kp e h => exact absurd rfl (h1 kp e h)
    | _ => rfl
  · cases s with
    | awaitingSignature kp gy x p => exact absurd rfl (h1 kp gy x p)
    | _ => rfl

/-- C31: an expected message that does not verify is an error too: a success changes the state only as the
protocol says. -/
theorem C31_accepted {E : Env} {host : Option DSAKeypair} {s s' : AKEState} :
    (∀ m x, handleRevealSignature E host m s = (.ok x, s') → ¬ NotAwaitingReveal s ∧ s' = .none) ∧
    (∀ m x, handleSignature E m s = (.ok x, s') → (∃ kp gy y p, s = .awaitingSignature kp gy y p) ∧ s' = .none) ∧
    (∀ m x, handleDhKey E host m s = (.ok x, s') →
      (∃ kp r y p, s = .awaitingDHKey kp r ∧ s' = .awaitingSignature kp m.gy y p ∧ x = .revealSignature p) ∨
      (∃ kp y p, s = .awaitingSignature kp m.gy y p ∧ s' = s ∧ x = .revealSignature p)) := by
  refine ⟨fun m x h => ?_, fun m x h => ?_, fun m x h => ?_⟩
  · rw [handleRevealSignature, transact_ok] at h
    cases s with
    | awaitingRevealSignature kp e hh =>
      simp only [Res.bind_eq_ok, Res.pure_def, Res.ok.injEq, Prod.mk.injEq] at h
      exact ⟨fun hn => hn kp e hh rfl, by obtain ⟨_, _, _, rfl⟩ := h; rfl⟩
    | _ => simp at h
  · rw [handleSignature, transact_ok] at h
    cases s with
    | awaitingSignature kp gy y p =>
      simp only [Res.bind_eq_ok, Res.pure_def, Res.ok.injEq, Prod.mk.injEq] at h
      exact ⟨⟨_, _, _, _, rfl⟩, by obtain ⟨_, _, _, rfl⟩ := h; rfl⟩
    | _ => simp at h
  · rw [handleDhKey, transact_ok] at h
    cases s with
    | awaitingDHKey kp r =>
      obtain ⟨_, -, -, h⟩ := answerDhKey_ok h
      simp only [Prod.mk.injEq] at h
      obtain ⟨rfl, rfl⟩ := h
      exact .inl ⟨_, _, _, _, rfl, rfl, rfl⟩
    | awaitingSignature kp gy y p =>
      simp only at h
      split at h
      · simp at h
      · rename_i hg
        simp only [Res.ok.injEq, Prod.mk.injEq] at h
        obtain ⟨rfl, rfl⟩ := h
        have : gy = m.gy := by simpa using hg
        subst this
        exact .inr ⟨_, _, _, rfl, rfl, rfl⟩
    | _ => simp at h

/-- Non-vacuity of C31: in the toy exchange the Signature message is ignored too early and accepted later;
a Reveal Signature message with a wrong MAC is rejected. -/
example : handleSignature toyEnv sig b1 = (.err (.authenticationError .messageIgnored), b1) ∧
    handleRevealSignature toyEnv (some alice) { reveal with sigMac := [1] } a1 =
      (.err (.authenticationError .cryptographicViolation), a1) := by
  constructor <;> decide +kernel

/-! ## C32: a repeated D-H Commit -/

/-- C32, what holds: while waiting for Reveal Signature, any D-H Commit message is answered with the same
D-H Key message as before.  Missing: the exchange does not continue with the new commitment; the state keeps
the old one. -/
theorem C32_partial {E : Env} {h : List AkeEv} {s : AKEState} (hl : AkeLife E h s)
    (hs : ¬ NotAwaitingReveal s) (c : DHCommitMessage) (rnd : Rand) :
    ∃ k c₀, handleDhCommit E c rnd s = (.ok (.dhKey k), s) ∧ AkeEv.commit c₀ (.ok (.dhKey k)) ∈ h := by
  have hi := life_inv hl
  cases s with
  | awaitingRevealSignature kp enc hashed =>
    exact ⟨⟨kp.pub⟩, _, rfl, hi.2⟩
  | _ => exact absurd (by intro _ _ _ h; cases h) hs

/-- C32 is violated: Bob begins an exchange, which Alice answers; he begins again (for example because he
lost his state, or never got her answer), Alice answers his new D-H Commit message; he accepts her D-H Key
message, but she rejects his Reveal Signature message. -/
theorem C32_violated :
    initiate toyEnv (smallRand 1) .none = (.ok (.dhCommit commit), b1) ∧
    handleDhCommit toyEnv commit (smallRand 2) .none = (.ok (.dhKey key), a1) ∧
    initiate toyEnv (smallRand 3) b1 = (.ok (.dhCommit commit'), b1') ∧
    handleDhCommit toyEnv commit' (smallRand 4) a1 = (.ok (.dhKey key), a1') ∧
    handleDhKey toyEnv (some bob) key b1' = (.ok (.revealSignature reveal'), b2') ∧
    handleRevealSignature toyEnv (some alice) reveal' a1' =
      (.err (.authenticationError .cryptographicViolation), a1') := by
  refine ⟨r1, r2, ?_, ?_, ?_, ?_⟩ <;> decide +kernel

/-! ## C67: no crash -/

theorem readSignedDone_ne_panic (E : Env) (x : Bytes) :
    runDec (do let x ← readSigned E; decDone; pure x) x ≠ .panic := by
  unfold runDec
  cases h : (do let x ← readSigned E; decDone; pure x : Dec _) x with
  | panic =>
    rcases Dec.bind_eq_panic.mp h with h | ⟨a, s, -, h⟩
    · exact absurd h (readSigned_safe E x).1
    · rcases Dec.bind_eq_panic.mp h with h | ⟨_, _, -, h⟩
      · unfold decDone at h
        split at h <;> simp at h
      · simp [Dec.pure_run] at h
  | _ => simp

/-- C67: if the host has a DSA key pair, no message crashes the key exchange, in any state. -/
theorem C67_no_panic {E : Env} (dsa : DSAKeypair) (s : AKEState) :
    (∀ m rnd, (handleDhCommit E m rnd s).1 ≠ .panic) ∧
    (∀ m, (handleDhKey E (some dsa) m s).1 ≠ .panic) ∧
    (∀ m, (handleRevealSignature E (some dsa) m s).1 ≠ .panic) ∧
    (∀ m, (handleSignature E m s).1 ≠ .panic) := by
  have key : ∀ {α : Type} (f : AKEState → Res (α × AKEState)), (StM.transact f s).1 = .panic → f s = .panic := by
    intro α f h
    exact ((transact_panic (s' := (StM.transact f s).2)).mp (by rw [← h])).1
  refine ⟨fun m rnd h => ?_, fun m h => ?_, fun m h => ?_, fun m h => ?_⟩
  · have := key _ h
    cases s with
    | awaitingDHKey kp r =>
      simp only at this
      split at this <;> simp at this
    | _ => simp at this
  · have := key _ h
    cases s with
    | awaitingDHKey kp r =>
      simp only [answerDhKey, hostKeypair, Res.bind_eq_panic, Res.orErr_panic, verifyPublicKey_ne_panic] at this
      simp at this
    | awaitingSignature kp gy y p =>
      simp only at this
      split at this <;> simp at this
    | _ => simp at this
  · have := key _ h
    cases s with
    | awaitingRevealSignature kp enc hashed =>
      simp only [answerRevealSignature, hostKeypair, Res.bind_eq_panic, Res.orErr_panic, verifyPublicKey_ne_panic,
        compareBytes_not_panic, runDec_ne_panic readMpi_safe, runDec_ne_panic (readSigned_safe E),
        dsaValidate_ne_panic] at this
      simp at this
    | _ => simp at this
  · have := key _ h
    cases s with
    | awaitingSignature kp gy y p =>
      simp only [acceptSignature, Res.bind_eq_panic, Res.orErr_panic, compareBytes_not_panic, readSignedDone_ne_panic,
        dsaValidate_ne_panic] at this
      simp at this
    | _ => simp at this

/-- C67 needs the key pair: without it, an expected D-H Key message crashes the client. -/
theorem C67_needs_key : (handleDhKey toyEnv none key b1).1 = .panic := by decide +kernel

end Otrr.Props
