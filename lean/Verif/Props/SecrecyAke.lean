import Verif.Props.Ake
import Verif.Props.Secrecy
/-! C121: an OTRv3 key exchange does not show who takes part in it. -/

namespace Otrr.Props
open Otrr Otrr.Spec Otrr.AKE

theorem identityOf_length (E : Env) (k : DSAKeypair) (m : Bytes) (a b : Nat) : (identityOf E k m a b).length = (wPublicKey k.pk).length + 44 := by
  simp [identityOf, wDsaSignature, wU32]

theorem stream_other (E : Env) {key key' : Bytes} (nonce pad d : Bytes) (h : key' ≠ key) :
    aesCrypt (repad E (.aes key nonce) pad) key' nonce d = aesCrypt E key' nonce d := by
  unfold aesCrypt repad
  simp [h]

/-- C121: for every other pair of working DSA keys, as long as those of Alice and Bob, all four messages could be the same.  There are key streams for the two
keys with which the identities were encrypted, changed nowhere else, with which the other owners exchange the very same messages, accept them and each other,
and are in the same states.  Assumed is that the key that is revealed and the two others differ. -/
theorem C121_anonymous {E : Env} (hp : FitsMpi E.dh.p) (hp0 : 0 < E.dh.p) {alice bob alice' bob' : DSAKeypair}
    (ga' : GoodDsa E alice') (gb' : GoodDsa E bob')
    (la : (wPublicKey alice'.pk).length = (wPublicKey alice.pk).length) (lb : (wPublicKey bob'.pk).length = (wPublicKey bob.pk).length)
    {rb ra : Rand} {b0 b1 b2 b3 a0 a1 a2 : AKEState}
    {commit : DHCommitMessage} {key : DHKeyMessage} {reveal : RevealSignatureMessage} {sig : SignatureMessage}
    {matA matB : AKEMaterial}
    (h1 : initiate E rb b0 = (.ok (.dhCommit commit), b1))
    (ha0 : NotAwaitingReveal a0) (h2 : handleDhCommit E commit ra a0 = (.ok (.dhKey key), a1))
    (h3 : handleDhKey E (some bob) key b1 = (.ok (.revealSignature reveal), b2))
    (h4 : handleRevealSignature E (some alice) reveal a1 = (.ok (matA, .signature sig), a2))
    (h5 : handleSignature E sig b2 = (.ok matB, b3))
    (c c' : Bytes) (hc : akeKey E 1 (matA.ourDh.sharedSecret E.dh matA.theirDh) = c ++ c') (hl : c.length = 16)
    (hd : [reveal.key, c, c'].Nodup) :
    ∃ padB padA : Bytes, padB.length = reveal.sigEncrypted.length ∧ padA.length = sig.sigEncrypted.length ∧
      let E' := repad (repad E (.aes c (List.replicate 16 0)) padB) (.aes c' (List.replicate 16 0)) padA
      ∃ matA' matB', initiate E' rb b0 = (.ok (.dhCommit commit), b1) ∧ handleDhCommit E' commit ra a0 = (.ok (.dhKey key), a1) ∧
        handleDhKey E' (some bob') key b1 = (.ok (.revealSignature reveal), b2) ∧
        handleRevealSignature E' (some alice') reveal a1 = (.ok (matA', .signature sig), a2) ∧
        handleSignature E' sig b2 = (.ok matB', b3) ∧ Agree3 E' alice' bob' matA' matB' ∧ matA'.ssid = matA.ssid := by
  have h1' := h1
  have h2' := h2
  obtain ⟨x, r, rfl, rfl⟩ := initiate_inv h1
  obtain ⟨y, rfl, rfl⟩ := dhCommit_inv ha0 h2
  have h3' := h3
  rw [handleDhKey, transact_ok] at h3'
  obtain ⟨d, hb, hy, h3'⟩ := answerDhKey_ok h3'
  cases hb
  simp only [Prod.mk.injEq, EncodedMessageType.revealSignature.injEq] at h3'
  obtain ⟨e3, e3'⟩ := h3'
  have h4' := h4
  rw [handleRevealSignature, transact_ok] at h4'
  simp only [Res.bind_eq_ok, Res.pure_def, Res.ok.injEq, Prod.mk.injEq] at h4'
  obtain ⟨_, h4', rfl, rfl⟩ := h4'
  have hmac : anyNonzero reveal.sigMac = true := by
    unfold answerRevealSignature at h4'
    simp only [Res.bind_eq_ok] at h4'
    obtain ⟨_, _, gx, q2, _, _, _, q4, _⟩ := h4'
    rw [Res.orErr_ok] at q4
    obtain ⟨q4, q5⟩ := compareBytes_ok.mp q4
    rw [← q4]
    exact q5
  obtain ⟨gx, pk, keyid, sg, dsa, rest, ha, e4, e5, e6, hx, e7, e8, e9, e10, e11⟩ := answerRevealSignature_ok h4'
  cases ha
  have hr : reveal.key = r := by rw [e3]
  have hgx : gx = (DH.Keypair.new E.dh x).pub := by
    have h0 : aesCrypt E reveal.key zeroNonce (dhCommitOf E (DH.Keypair.new E.dh x) r).gxEncrypted =
        wMpi (DH.Keypair.new E.dh x).pub := by
      rw [hr]
      exact aesCrypt_twice ..
    have := readMpi_w (fits_mpiOk (fits_mono hp (Nat.le_of_lt (pub_lt hp0 x)))) []
    rw [List.append_nil, ← h0, e6] at this
    simp only [Res.ok.injEq, Prod.mk.injEq] at this
    exact this.1
  subst hgx
  have hmac' : anyNonzero sig.sigMac = true := by
    have h5 := h5
    rw [handleSignature, transact_ok] at h5
    cases b2 with
    | awaitingSignature kp gy s prev =>
      simp only [Res.bind_eq_ok, acceptSignature] at h5
      obtain ⟨_, ⟨_, q, _⟩, _⟩ := h5
      rw [Res.orErr_ok] at q
      exact (compareBytes_ok.mp q).2
    | _ => simp at h5
  have hs := C64_shared_secret E.dh x y
  rw [hs] at e3 e3'
  rw [e10] at hc
  simp only [akeKey] at hc
  set ka := DH.Keypair.new E.dh y with hka
  set kb := DH.Keypair.new E.dh x with hkb
  have hcc : (AKESecrets.derive E (wMpi (ka.sharedSecret E.dh kb.pub))).c = c := by
    show (E.sha256 _).take 16 = c
    exact (congrArg (List.take 16) hc).trans (List.take_left' hl)
  have hcc' : (AKESecrets.derive E (wMpi (ka.sharedSecret E.dh kb.pub))).cp = c' := by
    show (E.sha256 _).drop 16 = c'
    exact (congrArg (List.drop 16) hc).trans (List.drop_left' hl)
  simp only [EncodedMessageType.signature.injEq] at e11
  rw [hcc] at e3 e3'
  rw [hcc'] at e11
  set sec := AKESecrets.derive E (wMpi (ka.sharedSecret E.dh kb.pub)) with hsec
  have hlB : (identityOf E bob' sec.m1 kb.pub ka.pub).length = reveal.sigEncrypted.length := by
    rw [e3]; simp only [aesCrypt, xorStream_length, identityOf_length, lb]
  have hlA : (identityOf E alice' sec.m1p ka.pub kb.pub).length = sig.sigEncrypted.length := by
    rw [e11]; simp only [aesCrypt, xorStream_length, identityOf_length, la]
  refine ⟨padFor (identityOf E bob' sec.m1 kb.pub ka.pub) reveal.sigEncrypted, padFor (identityOf E alice' sec.m1p ka.pub kb.pub) sig.sigEncrypted,
    by simp [padFor]; omega, by simp [padFor]; omega, ?_⟩
  intro E'
  simp only [List.nodup_cons, List.mem_cons, List.not_mem_nil, or_false, not_or, not_false_eq_true, List.nodup_nil, and_true] at hd
  obtain ⟨⟨d1, d2⟩, d3⟩ := hd
  rw [hr] at d1 d2
  have t0 : dhCommitOf E' kb r = dhCommitOf E kb r := by
    simp only [dhCommitOf]
    congr 1
    show aesCrypt E' r zeroNonce (wMpi kb.pub) = _
    exact (stream_other _ _ _ _ d2).trans (stream_other _ _ _ _ d1)
  have tB : aesCrypt E' c zeroNonce (identityOf E bob' sec.m1 kb.pub ka.pub) = reveal.sigEncrypted :=
    (stream_other _ _ _ _ d3).trans ((stream_aes ..).trans (xorStream_pad hlB))
  have tA : aesCrypt E' c' zeroNonce (identityOf E alice' sec.m1p ka.pub kb.pub) = sig.sigEncrypted :=
    (stream_aes ..).trans (xorStream_pad hlA)
  have gA : GoodDsa E' alice' := ⟨⟨ga'.key.ok, ga'.key.qlow, ga'.key.qhigh, ga'.key.p, ga'.key.g, ga'.key.y⟩, ga'.sig, ga'.correct⟩
  have gB : GoodDsa E' bob' := ⟨⟨gb'.key.ok, gb'.key.qlow, gb'.key.qhigh, gb'.key.p, gb'.key.g, gb'.key.y⟩, gb'.sig, gb'.correct⟩
  obtain ⟨reveal', b2', f1, f2⟩ := exchange (E := E') hp hp0 gA gB x y r hx hy
  have f1' := f1
  rw [handleDhKey, transact_ok] at f1'
  obtain ⟨d, hb, -, f1'⟩ := answerDhKey_ok f1'
  cases hb
  simp only [Prod.mk.injEq, EncodedMessageType.revealSignature.injEq] at f1'
  obtain ⟨g1, g2⟩ := f1'
  have i1 : reveal' = reveal := by
    rw [g1]
    show RevealSignatureMessage.mk r (aesCrypt E' (AKESecrets.derive E (wMpi (kb.sharedSecret E.dh ka.pub))).c zeroNonce
        (identityOf E bob' (AKESecrets.derive E (wMpi (kb.sharedSecret E.dh ka.pub))).m1 kb.pub ka.pub))
      (identityMac E (AKESecrets.derive E (wMpi (kb.sharedSecret E.dh ka.pub))).m2
        (aesCrypt E' (AKESecrets.derive E (wMpi (kb.sharedSecret E.dh ka.pub))).c zeroNonce
          (identityOf E bob' (AKESecrets.derive E (wMpi (kb.sharedSecret E.dh ka.pub))).m1 kb.pub ka.pub))) = reveal
    rw [hs, ← hsec, hcc, tB]
    conv_rhs => rw [e3]
    rw [e3]
  subst i1
  have i2 : b2' = b2 := by
    rw [g2, e3', ← g1, ← e3]
    show AKEState.awaitingSignature kb ka.pub (kb.sharedSecret E.dh ka.pub) _ = _
    rw [hs]
  subst i2
  have hk : ∀ z, DH.Keypair.new E'.dh z = DH.Keypair.new E.dh z := fun _ => rfl
  rw [hk, hk, ← hka, ← hkb] at f2
  rw [t0] at f2
  obtain ⟨matA', sig', f3, f4⟩ := f2 e5 hmac
  have f3' := f3
  rw [handleRevealSignature, transact_ok] at f3'
  simp only [Res.bind_eq_ok, Res.pure_def, Res.ok.injEq, Prod.mk.injEq] at f3'
  obtain ⟨_, f3', rfl, -⟩ := f3'
  obtain ⟨gx, pk', keyid', sg', dsa, rest', ha, -, -, j6, -, -, -, -, j10, j11⟩ := answerRevealSignature_ok f3'
  cases ha
  have j6' : aesCrypt E' reveal'.key zeroNonce (dhCommitOf E kb r).gxEncrypted = aesCrypt E reveal'.key zeroNonce (dhCommitOf E kb r).gxEncrypted := by
    rw [hr]
    exact (stream_other _ _ _ _ d2).trans (stream_other _ _ _ _ d1)
  rw [j6', e6] at j6
  simp only [Res.ok.injEq, Prod.mk.injEq] at j6
  obtain ⟨rfl, -⟩ := j6
  simp only [EncodedMessageType.signature.injEq] at j11
  have i3 : sig' = sig := by
    rw [j11]
    show SignatureMessage.mk (aesCrypt E' sec.cp zeroNonce (identityOf E alice' sec.m1p ka.pub kb.pub))
      (identityMac E sec.m2p (aesCrypt E' sec.cp zeroNonce (identityOf E alice' sec.m1p ka.pub kb.pub))) = sig
    rw [hcc', tA]
    conv_rhs => rw [e11]
    rw [e11]
  subst i3
  obtain ⟨matB', f5, f6, -⟩ := f4 hmac'
  have i5 : b3 = .none := by
    rw [handleSignature, transact_ok, e3'] at h5
    simp only [Res.bind_eq_ok, Res.pure_def, Res.ok.injEq, Prod.mk.injEq] at h5
    obtain ⟨_, -, -, rfl⟩ := h5
    rfl
  subst i5
  refine ⟨matA', matB', ?_, ?_, f1, f3, f5, f6, ?_⟩
  · rw [initiate, transact_ok] at h1' ⊢
    simp only [Res.ok.injEq, Prod.mk.injEq, EncodedMessageType.dhCommit.injEq, AKEState.awaitingDHKey.injEq] at h1' ⊢
    obtain ⟨q1, q2, q3⟩ := h1'
    refine ⟨?_, q2, q3⟩
    rw [q3, ← t0]
    exact congrArg (fun k => dhCommitOf E' k r) q2
  · rw [handleDhCommit, transact_ok] at h2' ⊢
    cases a0 with
    | none => exact h2'
    | awaitingDHKey kp r0 =>
      simp only at h2' ⊢
      split at h2'
      · simp at h2'
      · rename_i hn
        rw [show E'.sha256 = E.sha256 from rfl, if_neg hn]
        exact h2'
    | awaitingRevealSignature kp e h' => exact absurd rfl (ha0 kp e h')
    | awaitingSignature _ _ _ _ => exact h2'
  · rw [j10, e10]
    rfl

open ToyAke

/-- Two other clients, with keys as long as those of Alice and Bob. -/
def carol : DSAKeypair := ⟨⟨23, 2 ^ 159 + 5, 4, 8⟩, 8⟩
def dave : DSAKeypair := ⟨⟨29, 2 ^ 159 + 7, 3, 11⟩, 11⟩

/-- The hypotheses are met by the exchange of C28. -/
example : GoodDsa toyEnv carol ∧ GoodDsa toyEnv dave ∧ (wPublicKey carol.pk).length = (wPublicKey alice.pk).length ∧
    (wPublicKey dave.pk).length = (wPublicKey bob.pk).length ∧ carol.pk ≠ alice.pk ∧ dave.pk ≠ bob.pk :=
  ⟨goodDsa _ _ _ _ (by decide) (by decide) (by decide) (by decide) (by decide),
    goodDsa _ _ _ _ (by decide) (by decide) (by decide) (by decide) (by decide), by decide +kernel, by decide +kernel, by decide, by decide⟩

example : ∃ c c', akeKey toyEnv 1 (matA.ourDh.sharedSecret toyEnv.dh matA.theirDh) = c ++ c' ∧ c.length = 16 ∧ [reveal.key, c, c'].Nodup :=
  ⟨(akeKey toyEnv 1 (matA.ourDh.sharedSecret toyEnv.dh matA.theirDh)).take 16, (akeKey toyEnv 1 (matA.ourDh.sharedSecret toyEnv.dh matA.theirDh)).drop 16,
    (List.take_append_drop ..).symm, by decide +kernel, by decide +kernel⟩

end Otrr.Props
