import Verif.Spec.Agreement3
import Verif.Props.Ake
import Verif.Props.Covered
/-! C117: a signature of the OTRv3 key exchange is accepted in the exchange it was made in. -/

namespace Otrr.Props
open Otrr Otrr.Spec Otrr.AKE ToyAke

/-- C117, what the owner of a key signs, first part: the client that began the exchange signs once, over both D-H public keys, its own first, its long-term key
and key id 1, under a MAC key that is derived from the shared secret with number 2. -/
theorem C117_signs_reveal {E : Env} {key : DSAKeypair} {m : DHKeyMessage} {kp : DH.Keypair} {r : Bytes} {reply : EncodedMessageType} {s' : AKEState}
    (hr : handleDhKey E (some key) m (.awaitingDHKey kp r) = (.ok reply, s')) :
    ∃ msg, reply = .revealSignature msg ∧ msg.sigEncrypted = aesCrypt E ((akeKey E 1 (secret3 E kp m.gy)).take 16) (List.replicate 16 0)
      (wPublicKey key.pk ++ wU32 1 ++ wDsaSignature
        (E.dsaSign key (digest3 E key.pk.q (akeKey E 2 (secret3 E kp m.gy)) (transcript3 kp.pub m.gy key.pk 1)))) := by
  rw [handleDhKey, transact_ok] at hr
  obtain ⟨dsa, hd, -, e⟩ := answerDhKey_ok hr
  cases hd
  simp only [Prod.mk.injEq] at e
  exact ⟨_, e.1, rfl⟩

/-- C117, what the owner of a key signs, second part: the client that answers, with number 4. -/
theorem C117_signs_signature {E : Env} {key : DSAKeypair} {m : RevealSignatureMessage} {s s' : AKEState} {mat : AKEMaterial} {reply : EncodedMessageType}
    (hr : handleRevealSignature E (some key) m s = (.ok (mat, reply), s')) :
    ∃ msg, reply = .signature msg ∧ msg.sigEncrypted = aesCrypt E ((akeKey E 1 (secret3 E mat.ourDh mat.theirDh)).drop 16) (List.replicate 16 0)
      (wPublicKey key.pk ++ wU32 1 ++ wDsaSignature (E.dsaSign key (digest3 E key.pk.q (akeKey E 4 (secret3 E mat.ourDh mat.theirDh))
        (transcript3 mat.ourDh.pub mat.theirDh key.pk 1)))) := by
  rw [handleRevealSignature, transact_ok] at hr
  cases s with
  | awaitingRevealSignature kp enc hashed =>
    simp only [Res.bind_eq_ok, Res.pure_def, Res.ok.injEq, Prod.mk.injEq] at hr
    obtain ⟨_, hr, rfl, -⟩ := hr
    obtain ⟨gx, pk, keyid, sg, dsa, rest, hd, e1, e2, e3, e4, e5, e6, e7, rfl, e9⟩ := answerRevealSignature_ok hr
    cases hd
    exact ⟨_, e9, rfl⟩
  | _ => simp at hr

/-- What a signing client used: a D-H key pair of its own and a D-H public key in range. -/
theorem signed3_spec {E : Env} {key : DSAKeypair} {n : UInt8} {kp : DH.Keypair} {other : Nat} (h : Signed3 E key n kp other) :
    (n = 2 ∨ n = 4) ∧ (∃ x, kp = DH.Keypair.new E.dh x) ∧ InRange E.dh other := by
  cases h with
  | @began h kp r m reply s' hl hr =>
    have hi := life_inv hl
    rw [handleDhKey, transact_ok] at hr
    obtain ⟨dsa, hd, hg, e⟩ := answerDhKey_ok hr
    exact ⟨.inl rfl, hi.1, hg⟩
  | @answered h s m mat reply s' hl hr =>
    obtain ⟨-, ⟨x, hx⟩, hg, -⟩ := C29_reveal hl hr
    exact ⟨.inr rfl, ⟨x, hx⟩, hg⟩

theorem inRange_fits {E : Env} (hp : FitsMpi E.dh.p) {v : Nat} (h : InRange E.dh v) : FitsMpi v :=
  fits_mono hp (by have := h.2; omega)

theorem transcript3_inj {a b a' b' : Nat} (ha : FitsMpi a) (hb : FitsMpi b) (ha' : FitsMpi a') (hb' : FitsMpi b') {pk : DSAPublicKey} {k k' : UInt32}
    (h : transcript3 a b pk k = transcript3 a' b' pk k') : a = a' ∧ b = b' ∧ k = k' := by
  unfold transcript3 at h
  simp only [List.append_assoc] at h
  obtain ⟨e1, h⟩ := wMpi_app ha ha' h
  obtain ⟨e2, h⟩ := wMpi_app hb hb' h
  have h := List.append_cancel_left h
  exact ⟨e1, e2, (wU32_app (x := []) (y := []) (by simpa using h)).1⟩

/-- The common core: equal digests are about the same exchange, in the same role, unless a collision is found. -/
theorem same_exchange {E : Env} (hp : FitsMpi E.dh.p) (hp0 : 0 < E.dh.p) {key : DSAKeypair} {n role : UInt8} {kp our : DH.Keypair} {other their : Nat} {keyid : UInt32}
    (ho : Signed3 E key n kp other) (hour : ∃ x, our = DH.Keypair.new E.dh x) (hth : InRange E.dh their)
    (hsame : digest3 E key.pk.q (akeKey E n (secret3 E kp other)) (transcript3 kp.pub other key.pk 1) =
      digest3 E key.pk.q (akeKey E role (secret3 E our their)) (transcript3 their our.pub key.pk keyid)) :
    (n = role ∧ kp.pub = their ∧ other = our.pub ∧ secret3 E kp other = secret3 E our their ∧ keyid = 1) ∨
    DigestCollision E key.pk.q (akeKey E n (secret3 E kp other)) (transcript3 kp.pub other key.pk 1)
      (akeKey E role (secret3 E our their)) (transcript3 their our.pub key.pk keyid) ∨
    (n ≠ role ∧ E.sha256 (n :: wMpi (secret3 E kp other)) = E.sha256 (role :: wMpi (secret3 E our their))) := by
  obtain ⟨hn, ⟨x, rfl⟩, hother⟩ := signed3_spec ho
  obtain ⟨y, rfl⟩ := hour
  by_cases hk : (akeKey E n (secret3 E (DH.Keypair.new E.dh x) other), transcript3 (DH.Keypair.new E.dh x).pub other key.pk 1) =
      (akeKey E role (secret3 E (DH.Keypair.new E.dh y) their), transcript3 their (DH.Keypair.new E.dh y).pub key.pk keyid)
  · rw [Prod.mk.injEq] at hk
    obtain ⟨hk, ht⟩ := hk
    obtain ⟨e1, e2, e3⟩ := transcript3_inj (fits_mono hp (pub_lt hp0 _).le) (inRange_fits hp hother) (inRange_fits hp hth)
      (fits_mono hp (pub_lt hp0 _).le) ht
    by_cases hnr : n = role
    · refine .inl ⟨hnr, e1, e2, ?_, e3.symm⟩
      subst e1 e2
      exact C64_shared_secret E.dh x y
    · exact .inr (.inr ⟨hnr, hk⟩)
  · exact .inr (.inl ⟨hk, hsame⟩)

/-- C117, the client that answered: it accepts a Reveal Signature message with the signature `sig`, for key id `keyid`, of the owner of `key`.  If that owner
made the signature in an exchange, i.e. signed there the number that is verified here, then it is the same exchange: the owner had begun it, its D-H public key
is the one received here, the one it received is the one sent here, and both have the same shared secret.  Otherwise one number is signed for two different
texts, or a hash collision is found; both are named. -/
theorem C117_reveal {E : Env} (hp : FitsMpi E.dh.p) (hp0 : 0 < E.dh.p) {host : Option DSAKeypair} {h : List AkeEv} {s s' : AKEState}
    {m : RevealSignatureMessage} {mat : AKEMaterial} {reply : EncodedMessageType} (hl : AkeLife E h s)
    (hr : handleRevealSignature E host m s = (.ok (mat, reply), s'))
    {key : DSAKeypair} {n : UInt8} {kp : DH.Keypair} {other : Nat} (ho : Signed3 E key n kp other) (hkey : mat.theirDsa = key.pk) :
    let sec := secret3 E mat.ourDh mat.theirDh
    ∃ keyid sig, runDec (readSigned E) (aesCrypt E ((akeKey E 1 sec).take 16) (List.replicate 16 0) m.sigEncrypted) = .ok (key.pk, keyid, sig) ∧
      E.dsaVerify key.pk (digest3 E key.pk.q (akeKey E 2 sec) (transcript3 mat.theirDh mat.ourDh.pub key.pk keyid)) sig = true ∧
      (digest3 E key.pk.q (akeKey E n (secret3 E kp other)) (transcript3 kp.pub other key.pk 1) =
          digest3 E key.pk.q (akeKey E 2 sec) (transcript3 mat.theirDh mat.ourDh.pub key.pk keyid) →
        (n = 2 ∧ kp.pub = mat.theirDh ∧ other = mat.ourDh.pub ∧ secret3 E kp other = sec ∧ keyid = 1) ∨
        DigestCollision E key.pk.q (akeKey E n (secret3 E kp other)) (transcript3 kp.pub other key.pk 1)
          (akeKey E 2 sec) (transcript3 mat.theirDh mat.ourDh.pub key.pk keyid) ∨
        (n ≠ 2 ∧ E.sha256 (n :: wMpi (secret3 E kp other)) = E.sha256 (2 :: wMpi sec))) := by
  obtain ⟨-, ⟨x, hx⟩, hg, -, -, keyid, sig, -, hrd, hv⟩ := C29_reveal hl hr
  rw [hkey] at hrd hv
  exact ⟨keyid, sig, hrd, hv, fun hs => same_exchange hp hp0 ho ⟨x, hx⟩ hg hs⟩

/-- C117, the client that began: likewise, for a Signature message.  Then the owner of the key has answered. -/
theorem C117_signature {E : Env} (hp : FitsMpi E.dh.p) (hp0 : 0 < E.dh.p) {h : List AkeEv} {s s' : AKEState}
    {m : SignatureMessage} {mat : AKEMaterial} (hl : AkeLife E h s) (hr : handleSignature E m s = (.ok mat, s'))
    {key : DSAKeypair} {n : UInt8} {kp : DH.Keypair} {other : Nat} (ho : Signed3 E key n kp other) (hkey : mat.theirDsa = key.pk) :
    let sec := secret3 E mat.ourDh mat.theirDh
    ∃ keyid sig, runDec (readSigned E) (aesCrypt E ((akeKey E 1 sec).drop 16) (List.replicate 16 0) m.sigEncrypted) = .ok (key.pk, keyid, sig) ∧
      E.dsaVerify key.pk (digest3 E key.pk.q (akeKey E 4 sec) (transcript3 mat.theirDh mat.ourDh.pub key.pk keyid)) sig = true ∧
      (digest3 E key.pk.q (akeKey E n (secret3 E kp other)) (transcript3 kp.pub other key.pk 1) =
          digest3 E key.pk.q (akeKey E 4 sec) (transcript3 mat.theirDh mat.ourDh.pub key.pk keyid) →
        (n = 4 ∧ kp.pub = mat.theirDh ∧ other = mat.ourDh.pub ∧ secret3 E kp other = sec ∧ keyid = 1) ∨
        DigestCollision E key.pk.q (akeKey E n (secret3 E kp other)) (transcript3 kp.pub other key.pk 1)
          (akeKey E 4 sec) (transcript3 mat.theirDh mat.ourDh.pub key.pk keyid) ∨
        (n ≠ 4 ∧ E.sha256 (n :: wMpi (secret3 E kp other)) = E.sha256 (4 :: wMpi sec))) := by
  obtain ⟨-, -, ⟨x, hx⟩, hg, -, -, keyid, sig, -, hrd, hv⟩ := C29_signature hl hr
  rw [hkey] at hrd hv
  exact ⟨keyid, sig, hrd, hv, fun hs => same_exchange hp hp0 ho ⟨x, hx⟩ hg hs⟩

/-- The hypotheses are met by the toy exchange: Bob signs in the exchange in which Alice accepts the signature, over the same number, and conversely. -/
theorem toy_b1 : b1 = .awaitingDHKey (DH.Keypair.generate toyEnv.dh ((smallRand 1).bytes [0] 192)) ((smallRand 1).bytes [1] 16) := by decide +kernel

example : ∃ kp, Signed3 toyEnv bob 2 kp key.gy ∧ matA.theirDsa = bob.pk ∧ kp.pub = matA.theirDh ∧ key.gy = matA.ourDh.pub := by
  have r1' := r1
  have r3' := r3
  rw [toy_b1] at r1' r3'
  exact ⟨_, .began (.began .start r1') r3', by decide +kernel, by decide +kernel, by decide +kernel⟩

example : Signed3 toyEnv alice 4 matA.ourDh matA.theirDh ∧ matB.theirDsa = alice.pk ∧ matA.ourDh.pub = matB.theirDh ∧ matA.theirDh = matB.ourDh.pub :=
  ⟨.answered (.commit .start r2) r4, by decide +kernel, by decide +kernel, by decide +kernel⟩

end Otrr.Props
