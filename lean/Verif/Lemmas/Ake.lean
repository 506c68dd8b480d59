import Verif.Spec.Ake
import Verif.Lemmas.Pair3
import Verif.Lemmas.Messages
import Verif.Props.Crypto
/-! # Facts about the OTRv3 key exchange -/

namespace Otrr
open Spec

theorem transact_ok {f : σ → Res (α × σ)} {s s' : σ} {a : α} :
    StM.transact f s = (.ok a, s') ↔ f s = .ok (a, s') := by
  unfold StM.transact
  cases h : f s with
  | ok x => obtain ⟨x, y⟩ := x; simp
  | err e => simp
  | panic => simp

theorem transact_err {f : σ → Res (α × σ)} {s s' : σ} {e : OTRError} :
    StM.transact f s = (.err e, s') ↔ f s = .err e ∧ s' = s := by
  unfold StM.transact
  cases h : f s with
  | ok x => simp
  | err e => simp [eq_comm (a := s)]
  | panic => simp

theorem transact_panic {f : σ → Res (α × σ)} {s s' : σ} :
    StM.transact f s = (.panic, s') ↔ f s = .panic ∧ s' = s := by
  unfold StM.transact
  cases h : f s with
  | ok x => simp
  | err e => simp
  | panic => simp [eq_comm (a := s)]

theorem Res.orErr_ok {x : Res α} {e : OTRError} {a : α} : x.orErr e = .ok a ↔ x = .ok a := by
  cases x <;> simp [Res.orErr]

theorem Res.orErr_panic {x : Res α} {e : OTRError} : x.orErr e = .panic ↔ x = .panic := by
  cases x <;> simp [Res.orErr]

theorem verifyPublicKey_ok {G : DHGroup} {v : Nat} : DH.verifyPublicKey G v = .ok () ↔ InRange G v := by
  unfold DH.verifyPublicKey InRange
  split <;> rename_i h <;> simp_all

theorem verifyPublicKey_ne_panic {G : DHGroup} {v : Nat} : DH.verifyPublicKey G v ≠ .panic := by
  unfold DH.verifyPublicKey
  split <;> simp

theorem dsaValidate_ok {E : Env} {pk : DSAPublicKey} {sig : DSASignature} {d : Bytes} :
    pk.validate E sig d = .ok () ↔ E.dsaVerify pk (dsaPrehash d pk.q) sig = true := by
  unfold DSAPublicKey.validate
  split <;> simp_all

theorem dsaValidate_ne_panic {E : Env} {pk : DSAPublicKey} {sig : DSASignature} {d : Bytes} :
    pk.validate E sig d ≠ .panic := by
  unfold DSAPublicKey.validate
  split <;> simp

theorem runDec_ok {d : Dec α} {s : Bytes} {a : α} : runDec d s = .ok a ↔ ∃ r, d s = .ok (a, r) := by
  unfold runDec
  cases h : d s with
  | ok x => obtain ⟨x, y⟩ := x; simp
  | err e => simp
  | panic => simp

theorem runDec_ne_panic {d : Dec α} (hd : d.Safe) (s : Bytes) : runDec d s ≠ .panic := by
  unfold runDec
  have := (hd s).1
  cases h : d s <;> simp_all

theorem fromComponents_ne_panic {E : Env} {p q g y : Nat} : DSAPublicKey.fromComponents E p q g y ≠ .panic := by
  unfold DSAPublicKey.fromComponents
  split
  · simp
  · split <;> simp

theorem dsaSigFrom_ne_panic {r s : Nat} : DSASignature.from r s ≠ .panic := by
  unfold DSASignature.from
  split <;> simp

namespace AKE

theorem readSigned_safe (E : Env) : (readSigned E).Safe := by
  unfold readSigned
  refine Dec.Safe.bind ?_ fun _ => readU32_safe.bind fun _ => .ite (.fail _) ?_
  · unfold readPublicKey
    exact readU16_safe.bind fun _ => .ite (.fail _) (readMpi_safe.bind fun _ => readMpi_safe.bind fun _ =>
      readMpi_safe.bind fun _ => readMpi_safe.bind fun _ => .lift fromComponents_ne_panic)
  · refine Dec.Safe.bind ?_ fun _ => .pure _
    unfold readDsaSignature
    exact (readN_safe _).bind fun _ => (readN_safe _).bind fun _ => .lift dsaSigFrom_ne_panic

theorem readSigned_keyid {E : Env} {s rest : Bytes} {pk : DSAPublicKey} {keyid : UInt32} {sig : DSASignature}
    (h : readSigned E s = .ok ((pk, keyid, sig), rest)) : keyid ≠ 0 := by
  unfold readSigned at h
  obtain ⟨pk', s1, -, h⟩ := Dec.bind_eq_ok.mp h
  obtain ⟨k', s2, -, h⟩ := Dec.bind_eq_ok.mp h
  split at h
  · simp [Dec.fail] at h
  · rename_i hk
    obtain ⟨sg, s3, -, h⟩ := Dec.bind_eq_ok.mp h
    simp only [Dec.pure_run, Res.ok.injEq, Prod.mk.injEq] at h
    obtain ⟨⟨-, rfl, -⟩, -⟩ := h
    exact hk

theorem readSigned_w {E : Env} {k : DSAKeypair} (hk : GoodDsa E k) (m1 : Bytes) (own other : Nat) (rest : Bytes) :
    readSigned E (identityOf E k m1 own other ++ rest) =
      .ok ((k.pk, 1, k.sign E (E.hmacSha256 m1 (signedData own other k.pk 1))), rest) := by
  unfold readSigned identityOf
  have h1 := Props.C01_public_key_roundtrip E k.pk ⟨hk.key.ok, hk.key.qlow, hk.key.qhigh, hk.key.p, hk.key.g, hk.key.y⟩
  have hs := hk.sig (E.hmacSha256 m1 (signedData own other k.pk 1))
  have h2 := Props.C01_signature_roundtrip.1 _ ⟨hs.r.1, hs.r.2, hs.s.1, hs.s.2⟩
  rw [List.append_assoc, List.append_assoc, Dec.bind_ok (h1 _), Dec.bind_ok (readU32_w 1 _),
    if_neg (by decide), Dec.bind_ok (h2 _)]
  rfl

theorem readMpi_starts {s rest : Bytes} {v : Nat} (h : readMpi s = .ok (v, rest)) : StartsWithMpi s v := by
  unfold readMpi at h
  obtain ⟨len, s1, h1, h⟩ := Dec.bind_eq_ok.mp h
  have hlen : s = beBytes 4 len.toNat ++ s1 := by
    unfold readU32 at h1
    obtain ⟨b, s2, hb, h1⟩ := Dec.bind_eq_ok.mp h1
    simp only [Dec.pure_run, Res.ok.injEq, Prod.mk.injEq] at h1
    obtain ⟨rfl, rfl⟩ := h1
    unfold readN at hb
    split at hb
    · simp at hb
    · simp only [Res.ok.injEq, Prod.mk.injEq] at hb
      obtain ⟨rfl, rfl⟩ := hb
      have hl : (s.take 4).length = 4 := by simp; omega
      have := beNat_lt (s.take 4)
      rw [hl] at this
      rw [UInt32.toNat_ofNat_of_lt' (by simpa using this)]
      have : beBytes 4 (beNat (s.take 4)) = s.take 4 := by
        apply beNat_inj
        · simp [hl]
        · rw [beNat_beBytes_of_lt this]
      rw [this, List.take_append_drop]
  have hb := len.toNat_lt
  split at h
  · rename_i h0
    simp only [Dec.pure_run, Res.ok.injEq, Prod.mk.injEq] at h
    obtain ⟨rfl, rfl⟩ := h
    exact ⟨[], s1, by rw [hlen, h0]; rfl, by simp, rfl⟩
  · obtain ⟨b, s2, h2, h⟩ := Dec.bind_eq_ok.mp h
    simp only [Dec.pure_run, Res.ok.injEq, Prod.mk.injEq] at h
    obtain ⟨rfl, rfl⟩ := h
    unfold readN at h2
    split at h2
    · simp at h2
    · simp only [Res.ok.injEq, Prod.mk.injEq] at h2
      obtain ⟨rfl, rfl⟩ := h2
      have hl : (s1.take len.toNat).length = len.toNat := by simp; omega
      exact ⟨s1.take len.toNat, s1.drop len.toNat, by rw [hl, List.append_assoc, List.take_append_drop]; exact hlen,
        by rw [hl]; exact hb, rfl⟩

/-! ## What success means -/

theorem answerRevealSignature_ok {E : Env} {host : Option DSAKeypair} {m : RevealSignatureMessage} {kp : DH.Keypair}
    {enc hashed : Bytes} {mat : AKEMaterial} {reply : EncodedMessageType}
    (h : answerRevealSignature E host m kp enc hashed = .ok (mat, reply)) :
    ∃ gx pk keyid sig dsa rest, host = some dsa ∧
      E.sha256 (aesCrypt E m.key zeroNonce enc) = hashed ∧ anyNonzero hashed = true ∧
      readMpi (aesCrypt E m.key zeroNonce enc) = .ok (gx, rest) ∧ InRange E.dh gx ∧
      (let secrets := AKESecrets.derive E (wMpi (kp.sharedSecret E.dh gx))
      identityMac E secrets.m2 m.sigEncrypted = m.sigMac ∧
      (∃ rest', readSigned E (aesCrypt E secrets.c zeroNonce m.sigEncrypted) = .ok ((pk, keyid, sig), rest')) ∧
      E.dsaVerify pk (dsaPrehash (E.hmacSha256 secrets.m1 (signedData gx kp.pub pk keyid)) pk.q) sig = true ∧
      mat = ⟨secrets.ssid, kp, gx, pk⟩ ∧
      (let encA := aesCrypt E secrets.cp zeroNonce (identityOf E dsa secrets.m1p kp.pub gx)
      reply = .signature ⟨encA, identityMac E secrets.m2p encA⟩)) := by
  unfold answerRevealSignature at h
  simp only [Res.bind_eq_ok] at h
  obtain ⟨u, h1, gx, h2, u', h3, u'', h4, ⟨pk, keyid, sig⟩, h5, u''', h6, dsa, h7, h8⟩ := h
  rw [Res.orErr_ok] at h1 h2 h3 h4 h5 h6
  obtain ⟨rest, h2⟩ := runDec_ok.mp h2
  obtain ⟨h1, h1'⟩ := compareBytes_ok.mp h1
  obtain ⟨h4, h4'⟩ := compareBytes_ok.mp h4
  simp only [Res.pure_def, Res.ok.injEq, Prod.mk.injEq] at h8
  have hd : host = some dsa := by
    cases host <;> simp_all [hostKeypair]
  exact ⟨gx, pk, keyid, sig, dsa, rest, hd, h1, by rw [← h1]; exact h1', h2, verifyPublicKey_ok.mp h3, h4,
    runDec_ok.mp h5, dsaValidate_ok.mp h6, h8.1.symm, h8.2.symm⟩

theorem acceptSignature_ok {E : Env} {m : SignatureMessage} {kp : DH.Keypair} {gy s : Nat} {mat : AKEMaterial}
    (h : acceptSignature E m kp gy s = .ok mat) :
    ∃ pk keyid sig,
      (let secrets := AKESecrets.derive E (wMpi s)
      m.sigMac = identityMac E secrets.m2p m.sigEncrypted ∧
      readSigned E (aesCrypt E secrets.cp zeroNonce m.sigEncrypted) = .ok ((pk, keyid, sig), []) ∧
      E.dsaVerify pk (dsaPrehash (E.hmacSha256 secrets.m1p (signedData gy kp.pub pk keyid)) pk.q) sig = true ∧
      mat = ⟨secrets.ssid, kp, gy, pk⟩) := by
  unfold acceptSignature at h
  simp only [Res.bind_eq_ok] at h
  obtain ⟨u, h1, ⟨pk, keyid, sig⟩, h5, u', h6, h8⟩ := h
  rw [Res.orErr_ok] at h1 h5 h6
  obtain ⟨h1, h1'⟩ := compareBytes_ok.mp h1
  simp only [Res.pure_def, Res.ok.injEq] at h8
  obtain ⟨r, h5⟩ := runDec_ok.mp h5
  obtain ⟨x, s1, h5, h9⟩ := Dec.bind_eq_ok.mp h5
  obtain ⟨u, s2, h10, h9⟩ := Dec.bind_eq_ok.mp h9
  simp only [Dec.pure_run, Res.ok.injEq, Prod.mk.injEq] at h9
  obtain ⟨rfl, rfl⟩ := h9
  unfold decDone at h10
  split at h10
  · rename_i hs1
    subst hs1
    exact ⟨pk, keyid, sig, h1, h5, dsaValidate_ok.mp h6, h8.symm⟩
  · simp at h10

theorem answerDhKey_ok {E : Env} {host : Option DSAKeypair} {gy : Nat} {kp : DH.Keypair} {r : Bytes}
    {x : EncodedMessageType × AKEState} (h : answerDhKey E host gy kp r = .ok x) :
    ∃ dsa, host = some dsa ∧ InRange E.dh gy ∧
      (let s := kp.sharedSecret E.dh gy
      let secrets := AKESecrets.derive E (wMpi s)
      let enc := aesCrypt E secrets.c zeroNonce (identityOf E dsa secrets.m1 kp.pub gy)
      let m : RevealSignatureMessage := ⟨r, enc, identityMac E secrets.m2 enc⟩
      x = (.revealSignature m, .awaitingSignature kp gy s m)) := by
  unfold answerDhKey at h
  simp only [Res.bind_eq_ok] at h
  obtain ⟨u, h1, dsa, h2, h3⟩ := h
  rw [Res.orErr_ok] at h1
  simp only [Res.pure_def, Res.ok.injEq] at h3
  have hd : host = some dsa := by
    cases host <;> simp_all [hostKeypair]
  exact ⟨dsa, hd, verifyPublicKey_ok.mp h1, h3.symm⟩

/-! ## Invariant over histories -/

/-- What the state says about the history. -/
def Inv (E : Env) (h : List AkeEv) : AKEState → Prop
  | .none => True
  | .awaitingDHKey kp r => (∃ x, kp = DH.Keypair.new E.dh x) ∧ .began (dhCommitOf E kp r) ∈ h
  | .awaitingRevealSignature kp enc hashed => (∃ x, kp = DH.Keypair.new E.dh x) ∧
      .commit ⟨enc, hashed⟩ (.ok (.dhKey ⟨kp.pub⟩)) ∈ h
  | .awaitingSignature kp gy s prev => (∃ x, kp = DH.Keypair.new E.dh x) ∧ (∃ r, .began (dhCommitOf E kp r) ∈ h) ∧
      .key ⟨gy⟩ (.ok (.revealSignature prev)) ∈ h ∧ s = kp.sharedSecret E.dh gy ∧ InRange E.dh gy

theorem Inv.mono {E : Env} {h : List AkeEv} {s : AKEState} (hi : Inv E h s) (e : AkeEv) : Inv E (h ++ [e]) s := by
  cases s with
  | none => trivial
  | awaitingDHKey kp r => exact ⟨hi.1, List.mem_append_left _ hi.2⟩
  | awaitingRevealSignature kp enc hashed => exact ⟨hi.1, List.mem_append_left _ hi.2⟩
  | awaitingSignature kp gy s prev =>
    obtain ⟨h1, ⟨r, h2⟩, h3, h4⟩ := hi
    exact ⟨h1, ⟨r, List.mem_append_left _ h2⟩, List.mem_append_left _ h3, h4⟩

theorem life_inv {E : Env} {h : List AkeEv} {s : AKEState} (hl : AkeLife E h s) :
    Inv E h s := by
  induction hl with
  | start => trivial
  | @began h s s' rnd m hl hs ih =>
    rw [initiate, transact_ok] at hs
    simp only [Res.ok.injEq, Prod.mk.injEq, EncodedMessageType.dhCommit.injEq] at hs
    obtain ⟨rfl, rfl⟩ := hs
    exact ⟨⟨_, rfl⟩, by simp⟩
  | @commit h s s' m rnd r hl hs ih =>
    cases r with
    | err e =>
      obtain ⟨-, rfl⟩ := transact_err.mp hs
      exact ih.mono _
    | panic =>
      obtain ⟨-, rfl⟩ := transact_panic.mp hs
      exact ih.mono _
    | ok x =>
      rw [handleDhCommit, transact_ok] at hs
      have key : ∀ s', dhCommitFromInitial E m rnd = (x, s') → Inv E (h ++ [.commit m (.ok x)]) s' := by
        intro s' hs
        simp only [dhCommitFromInitial, Prod.mk.injEq] at hs
        obtain ⟨rfl, rfl⟩ := hs
        exact ⟨⟨_, rfl⟩, by simp⟩
      cases s with
      | none =>
        simp only [Res.ok.injEq] at hs
        exact key _ hs
      | awaitingDHKey kp r =>
        simp only at hs
        split at hs
        · simp only [Res.ok.injEq, Prod.mk.injEq] at hs
          obtain ⟨-, rfl⟩ := hs
          exact ih.mono _
        · simp only [Res.ok.injEq] at hs
          exact key _ hs
      | awaitingRevealSignature kp enc hashed =>
        simp only [Res.ok.injEq, Prod.mk.injEq] at hs
        obtain ⟨-, rfl⟩ := hs
        exact ih.mono _
      | awaitingSignature kp gy s prev =>
        simp only [Res.ok.injEq, Prod.mk.injEq] at hs
        obtain ⟨rfl, rfl⟩ := hs
        exact ⟨⟨_, rfl⟩, by simp⟩
  | @key h s s' host m r hl hs hp ih =>
    cases r with
    | err e =>
      obtain ⟨-, rfl⟩ := transact_err.mp hs
      exact ih.mono _
    | panic => exact absurd rfl hp
    | ok x =>
      rw [handleDhKey, transact_ok] at hs
      cases s with
      | none => simp at hs
      | awaitingDHKey kp r =>
        obtain ⟨dsa, -, hg, h2⟩ := answerDhKey_ok hs
        simp only [Prod.mk.injEq] at h2
        obtain ⟨rfl, rfl⟩ := h2
        exact ⟨ih.1, ⟨r, List.mem_append_left _ ih.2⟩, by simp, rfl, hg⟩
      | awaitingRevealSignature kp enc hashed => simp at hs
      | awaitingSignature kp gy s prev =>
        simp only at hs
        split at hs
        · simp at hs
        · simp only [Res.ok.injEq, Prod.mk.injEq] at hs
          obtain ⟨-, rfl⟩ := hs
          exact ih.mono _
  | @reveal h s s' host m r hl hs hp ih =>
    cases r with
    | err e =>
      obtain ⟨-, rfl⟩ := transact_err.mp hs
      exact ih.mono _
    | panic => exact absurd rfl hp
    | ok x =>
      rw [handleRevealSignature, transact_ok] at hs
      cases s with
      | awaitingRevealSignature kp enc hashed =>
        simp only [Res.bind_eq_ok, Res.pure_def, Res.ok.injEq, Prod.mk.injEq] at hs
        obtain ⟨_, _, _, rfl⟩ := hs
        trivial
      | _ => simp at hs
  | @sig h s s' m r hl hs hp ih =>
    cases r with
    | err e =>
      obtain ⟨-, rfl⟩ := transact_err.mp hs
      exact ih.mono _
    | panic => exact absurd rfl hp
    | ok x =>
      rw [handleSignature, transact_ok] at hs
      cases s with
      | awaitingSignature kp gy s prev =>
        simp only [Res.bind_eq_ok, Res.pure_def, Res.ok.injEq, Prod.mk.injEq] at hs
        obtain ⟨_, _, _, rfl⟩ := hs
        trivial
      | _ => simp at hs

end AKE

end Otrr
