import Verif.Props.SessionFragments
import Verif.Props.SessionExchange
import Verif.Props.Ake
import Verif.Spec.SessionExchange3
/-! Lemmas for C82: two clients that exchange keys and talk with OTRv3. -/

namespace Otrr
open Spec Props

/-! ## The size of messages -/

theorem aesCrypt_length (E : Env) (k n d : Bytes) : (aesCrypt E k n d).length = d.length := by
  simp [aesCrypt, xorStream]

theorem wDsaSignature_length (s : DSASignature) : (wDsaSignature s).length = 40 := by
  simp [wDsaSignature]

theorem identityOf_length (E : Env) (k : DSAKeypair) (m1 : Bytes) (x y : Nat) :
    (AKE.identityOf E k m1 x y).length = (wPublicKey k.pk).length + 44 := by
  simp only [AKE.identityOf, List.length_append, wDsaSignature_length]
  rfl

theorem identityMac_length (E : Env) (m2 enc : Bytes) : (AKE.identityMac E m2 enc).length = 20 := by
  simp [AKE.identityMac, E.hmacSha256_len]

theorem wData_length (d : Bytes) : (wData d).length = d.length + 4 := by
  simp only [wData, List.length_append]
  show 4 + _ = _
  omega

theorem fits_of_small {n : Nat} (h : (natToBE n).length < 2 ^ 31) : FitsMpi n :=
  ⟨byteLen n, by have := byteLen_le_natToBE n; omega, lt_pow_byteLen n⟩

theorem good_pos {G : DHGroup} (h : GoodGroup G) : 0 < G.g := by
  obtain ⟨h1, h2⟩ := h
  rcases Nat.eq_zero_or_pos G.g with h0 | h0
  · rw [h0, Nat.gcd_zero_left] at h2
    omega
  · exact h0

theorem anyNonzero_of {d : Bytes} (h : ∃ b ∈ d, b ≠ 0) : anyNonzero d = true := by
  obtain ⟨b, h1, h2⟩ := h
  simp only [anyNonzero, allZero, Bool.not_eq_true', List.all_eq_false]
  exact ⟨b, h1, by simpa using h2⟩

/-- The bytes of a D-H public key. -/
theorem pub_size {E : Env} (hG : GoodGroup E.dh) (x : Nat) :
    (wMpi (DH.Keypair.new E.dh x).pub).length ≤ (natToBE E.dh.p).length + 4 := by
  refine wMpi_length_le (Nat.le_trans (byteLen_mono (Nat.le_of_lt (pub_lt ?_ x))) (byteLen_le_natToBE _))
  have := hG.1
  omega

/-- The state after the exchange. -/
theorem enc3_new {E : Env} (hG : GoodGroup E.dh) {our their : UInt32} {k : DH.Keypair} {v : Nat} (hk : InRange E.dh k.pub)
    (hv : InRange E.dh v) (rnd : Rand) : ∃ s, Enc3.new E our their k v rnd = .ok s ∧ s.our = our ∧ s.their = their := by
  have hv0 : (v != 0) = true := by
    have := good_pos hG
    have := hv.1
    simp only [bne_iff_ne]
    omega
  have hk' : (DH.verifyPublicKey E.dh k.pub).isOk = true := by
    have : DH.verifyPublicKey E.dh k.pub = .ok () := if_pos hk
    rw [this]; rfl
  have : ∃ k', Enc3.new E our their k v rnd = .ok ⟨our, their, k'⟩ := by
    simp only [Enc3.new, KeyManager.new, KeypairRotation.new, PublicKeyRotation.new, hv0, hk', Res.assert, if_true,
      show ((1 : UInt32) != 0) = true from rfl, Res.bind_ok, Res.pure_def]
    exact ⟨_, rfl⟩
  exact this.elim fun _ h => ⟨_, h, rfl, rfl⟩

namespace Instance
variable {E : Env} {A : Account} {c : Call}

theorem initiate3_eq {i : Instance} {r : EncodedMessageType} {d : AKEState} {t : Bytes}
    (h : AKE.initiate E (c.rnd.sub 0) i.ake = (.ok r, d))
    (ht : serialize (.encoded ⟨.v3, A.tag, i.receiver, r⟩) = .ok t) (hl : t.length ≤ c.messageSize) :
    initiate E A c .v3 ⟨i, []⟩ = (.ok .none, ⟨{ i with ake := d }, [t]⟩) := by
  have h1 : onAke (AKE.initiate E (c.rnd.sub 0)) ⟨i, []⟩ = (.ok r, ⟨{ i with ake := d }, []⟩) := by
    simp only [onAke, h]
  simp only [initiate, StM.bind_run, h1, StM.gets]
  rw [inject_whole (i := { i with ake := d }) rfl ht hl]
  rfl

theorem process_dhCommit {i : Instance} {msg : DHCommitMessage} {snd rcv : UInt32} {r : EncodedMessageType} {d : AKEState} {t : Bytes}
    (hr : i.receiver = snd) (h : AKE.handleDhCommit E msg (c.rnd.sub 0) i.ake = (.ok r, d))
    (ht : serialize (.encoded ⟨.v3, A.tag, snd, r⟩) = .ok t) (hl : t.length ≤ c.messageSize) :
    process E A c ⟨.v3, snd, rcv, .dhCommit msg⟩ ⟨i, []⟩ = (.ok .none, ⟨{ i with ake := d }, [t]⟩) := by
  have h1 : onAke (AKE.handleDhCommit E msg (c.rnd.sub 0)) ⟨i, []⟩ = (.ok r, ⟨{ i with ake := d }, []⟩) := by
    simp only [onAke, h]
  simp only [process, StM.bind_run, h1, StM.gets]
  rw [inject_whole (i := { i with ake := d }) hr ht hl]
  rfl

theorem process_dhKey {i : Instance} {msg : DHKeyMessage} {snd rcv : UInt32} {r : EncodedMessageType} {d : AKEState} {t : Bytes}
    (hr : i.receiver = snd) (h : AKE.handleDhKey E c.keypair msg i.ake = (.ok r, d))
    (ht : serialize (.encoded ⟨.v3, A.tag, snd, r⟩) = .ok t) (hl : t.length ≤ c.messageSize) :
    process E A c ⟨.v3, snd, rcv, .dhKey msg⟩ ⟨i, []⟩ = (.ok .none, ⟨{ i with ake := d }, [t]⟩) := by
  have h1 : onAke (AKE.handleDhKey E c.keypair msg) ⟨i, []⟩ = (.ok r, ⟨{ i with ake := d }, []⟩) := by
    simp only [onAke, h]
  simp only [process, StM.bind_run, h1, StM.gets]
  rw [inject_whole (i := { i with ake := d }) hr ht hl]
  rfl

theorem secure3_run {i : Instance} {sent : List Bytes} {snd : UInt32} {mat : AKEMaterial} {x : Enc3}
    (hn : ∀ x m, i.state ≠ .encrypted4 x m) (hx : Enc3.new E A.tag snd mat.ourDh mat.theirDh (c.rnd.sub 1) = .ok x) :
    secure E A c snd mat ⟨i, sent⟩ =
      (.ok (), ⟨{ i with state := .encrypted3 x (SMP.new mat.ssid (fingerprint3 E mat.theirDsa)) }, sent⟩) := by
  have : i.state.secure3 E A.tag snd mat (c.rnd.sub 1) = .ok (.encrypted3 x (SMP.new mat.ssid (fingerprint3 E mat.theirDsa))) := by
    cases hs : i.state with
    | encrypted4 y m => exact absurd hs (hn y m)
    | _ => simp only [PState.secure3, hx, Res.bind_ok, Res.pure_def]
  simp only [secure, onState, this]

theorem process_revealSignature {i : Instance} {msg : RevealSignatureMessage} {snd rcv : UInt32} {r : EncodedMessageType} {mat : AKEMaterial}
    {d : AKEState} {t : Bytes} {x : Enc3} (hr : i.receiver = snd) (h : AKE.handleRevealSignature E c.keypair msg i.ake = (.ok (mat, r), d))
    (hn : ∀ x m, i.state ≠ .encrypted4 x m) (hx : Enc3.new E A.tag snd mat.ourDh mat.theirDh (c.rnd.sub 1) = .ok x)
    (ht : serialize (.encoded ⟨.v3, A.tag, snd, r⟩) = .ok t) (hl : t.length ≤ c.messageSize) :
    process E A c ⟨.v3, snd, rcv, .revealSignature msg⟩ ⟨i, []⟩ = (.ok (.sessionStarted snd),
      ⟨{ i with ake := d, state := .encrypted3 x (SMP.new mat.ssid (fingerprint3 E mat.theirDsa)) }, [t]⟩) := by
  have h1 : onAke (AKE.handleRevealSignature E c.keypair msg) ⟨i, []⟩ = (.ok (mat, r), ⟨{ i with ake := d }, []⟩) := by
    simp only [onAke, h]
  simp only [process, StM.bind_run, h1, StM.gets]
  rw [secure3_run (i := { i with ake := d }) hn hx]
  dsimp only
  rw [inject_whole (by exact hr) ht hl, hr]
  rfl

theorem process_signature {i : Instance} {msg : SignatureMessage} {snd rcv : UInt32} {mat : AKEMaterial}
    {d : AKEState} {x : Enc3} (hr : i.receiver = snd) (h : AKE.handleSignature E msg i.ake = (.ok mat, d))
    (hn : ∀ x m, i.state ≠ .encrypted4 x m) (hx : Enc3.new E A.tag snd mat.ourDh mat.theirDh (c.rnd.sub 1) = .ok x) :
    process E A c ⟨.v3, snd, rcv, .signature msg⟩ ⟨i, []⟩ = (.ok (.sessionStarted snd),
      ⟨{ i with ake := d, state := .encrypted3 x (SMP.new mat.ssid (fingerprint3 E mat.theirDsa)) }, []⟩) := by
  have h1 : onAke (AKE.handleSignature E msg) ⟨i, []⟩ = (.ok mat, ⟨{ i with ake := d }, []⟩) := by
    simp only [onAke, h]
  simp only [process, StM.bind_run, h1, StM.gets]
  rw [secure3_run (i := { i with ake := d }) hn hx, hr]
  rfl

end Instance
end Otrr
