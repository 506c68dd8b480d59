import Verif.Spec.Data4
import Verif.Lemmas.Hist3
import Verif.Lemmas.Ring
/-! # Facts about the double ratchet and OTRv4 encryption -/

namespace Otrr
open Spec

/-! ## Chains -/

theorem chainFwd_succ (E : Env) : ∀ (n : Nat) (c : Bytes), chainFwd E (n + 1) c = kdf E 64 0x14 (chainFwd E n c)
  | 0, _ => rfl
  | n + 1, c => chainFwd_succ E n (kdf E 64 0x14 c)

theorem chainFwd_add (E : Env) : ∀ (m n : Nat) (c : Bytes), chainFwd E (m + n) c = chainFwd E n (chainFwd E m c)
  | 0, n, c => by simp [chainFwd]
  | m + 1, n, c => by
    rw [Nat.succ_add]
    exact chainFwd_add E m n (kdf E 64 0x14 c)

theorem incId_of_lt {x : UInt32} (h : x.toNat < 4294967295) : incId x = .ok (x + 1) ∧ (x + 1).toNat = x.toNat + 1 := by
  constructor
  · rw [incId, if_neg]
    rintro rfl
    simp at h
  · rw [UInt32.toNat_add]
    have : (1 : UInt32).toNat = 1 := rfl
    omega

theorem incId_inv {x y : UInt32} (h : incId x = .ok y) : y = x + 1 ∧ y.toNat = x.toNat + 1 ∧ x.toNat < 4294967295 := by
  unfold incId at h
  split at h
  · simp at h
  · rename_i hn
    simp only [Res.ok.injEq] at h
    have hx : x.toNat < 4294967295 := by
      have h1 := x.toNat_lt
      have h2 : x.toNat ≠ 4294967295 := fun e => hn (UInt32.toNat_inj.mp e)
      omega
    exact ⟨h.symm, by rw [← h]; exact (incId_of_lt hx).2, hx⟩

theorem predSat_toNat (i : UInt32) : (predSat i).toNat = i.toNat - 1 := by
  unfold predSat
  split
  · rename_i h; subst h; rfl
  · rename_i h
    have h0 : i.toNat ≠ 0 := fun e => h (UInt32.toNat_inj.mp e)
    rw [UInt32.toNat_sub_of_le _ _ (by rw [UInt32.le_iff_toNat_le]; have : (1 : UInt32).toNat = 1 := rfl; omega)]
    rfl

theorem Ratchet.rotate_ok {E : Env} {r s : Ratchet} (h : r.rotate E = .ok s) :
    s.chain = kdf E 64 0x14 r.chain ∧ s.id.toNat = r.id.toNat + 1 ∧ r.id.toNat < 4294967295 := by
  simp only [Ratchet.rotate, Res.bind_eq_ok, Res.pure_def, Res.ok.injEq] at h
  obtain ⟨n, hn, rfl⟩ := h
  obtain ⟨_, h2, h3⟩ := incId_inv hn
  exact ⟨rfl, h2, h3⟩

theorem Ratchet.rotate_of_lt {E : Env} {r : Ratchet} (h : r.id.toNat < 4294967295) :
    r.rotate E = .ok ⟨kdf E 64 0x14 r.chain, r.id + 1⟩ := by
  rw [Ratchet.rotate, (incId_of_lt h).1]
  rfl

/-- Going forward to a later message id. -/
theorem Ratchet.forward_eq (E : Env) : ∀ (n : Nat) (r : Ratchet), r.id.toNat + n < 4294967296 →
    ∃ s, r.forward E n = .ok s ∧ s.chain = chainFwd E n r.chain ∧ s.id.toNat = r.id.toNat + n
  | 0, r, _ => ⟨r, rfl, rfl, rfl⟩
  | n + 1, r, h => by
    have hlt : r.id.toNat < 4294967295 := by omega
    have h1 := (incId_of_lt hlt).2
    obtain ⟨s, hs, hc, hi⟩ := Ratchet.forward_eq E n ⟨kdf E 64 0x14 r.chain, r.id + 1⟩ (by simp only; omega)
    refine ⟨s, ?_, hc, by simp only at hi; omega⟩
    rw [Ratchet.forward, Ratchet.rotate_of_lt hlt]
    exact hs

theorem Ratchet.forward_to (E : Env) (r : Ratchet) (j : UInt32) (h : r.id.toNat ≤ j.toNat) :
    r.forward E (j.toNat - r.id.toNat) = .ok ⟨chainFwd E (j.toNat - r.id.toNat) r.chain, j⟩ := by
  have hj := j.toNat_lt
  obtain ⟨⟨c, i⟩, hs, hc, hi⟩ := Ratchet.forward_eq E (j.toNat - r.id.toNat) r (by omega)
  simp only at hc hi
  have hi' : i = j := UInt32.toNat_inj.mp (by omega)
  rw [hs, hc, hi']

theorem Ratchet.forward_ne_panic (E : Env) (r : Ratchet) (j : UInt32) :
    ∃ s, r.forward E (j.toNat - r.id.toNat) = .ok s ∧ (r.id.toNat ≤ j.toNat → s.id = j) ∧ r.id.toNat ≤ s.id.toNat := by
  by_cases h : r.id.toNat ≤ j.toNat
  · exact ⟨_, Ratchet.forward_to E r j h, fun _ => rfl, h⟩
  · refine ⟨r, ?_, fun h' => absurd h' h, Nat.le_refl _⟩
    have : j.toNat - r.id.toNat = 0 := by omega
    rw [this]
    rfl

theorem Ratchet.keys_ok {E : Env} {r : Ratchet} {k : RatchetKeys} (h : r.keys E = .ok k) :
    anyNonzero r.chain = true ∧ k.enc = kdf E 64 0x15 r.chain ∧ k.mac = kdf E 64 0x16 (kdf E 64 0x15 r.chain) := by
  unfold Ratchet.keys at h
  split at h
  · rename_i hn
    simp only [Res.ok.injEq] at h
    subst h
    exact ⟨hn, rfl, rfl⟩
  · simp at h

theorem kdf_length (E : Env) (n : Nat) (u : UInt8) (d : Bytes) : (kdf E n u d).length = n := E.shake_len _ _

theorem kdf2_length (E : Env) (n : Nat) (u : UInt8) (d e : Bytes) : (kdf2 E n u d e).length = n := E.shake_len _ _

/-! ## Rotations -/

theorem Res.expect_eq_ok {x : Res α} {a : α} : x.expect = .ok a ↔ x = .ok a := by
  cases x <;> simp [Res.expect]

theorem Mixed.nextBrace_ok {E : Env} {dh : DH.Keypair} {pd : Nat} {third : Bool} {prev b : Bytes}
    (h : Mixed.nextBrace E dh pd third prev = .ok b) :
    (third = true ∧ b = kdf E 32 0x01 (natToBE (dh.sharedSecret E.dh3 pd))) ∨
      (third = false ∧ anyNonzero prev = true ∧ b = kdf E 32 0x02 prev) := by
  unfold Mixed.nextBrace at h
  cases third
  · simp only [Bool.false_eq_true, if_false] at h
    split at h
    · rename_i hn
      simp only [Res.ok.injEq] at h
      exact .inr ⟨rfl, hn, h.symm⟩
    · simp at h
  · simp only [if_true, Res.ok.injEq] at h
    exact .inl ⟨rfl, h.symm⟩

theorem Mixed.next_ok {E : Env} {ecdh : ECDHKeyPair} {dh : DH.Keypair} {pe : Point} {pd : Nat} {third : Bool}
    {prev : Bytes} {s : Mixed} (h : Mixed.next E ecdh dh pe pd third prev = .ok s) :
    Point.verify E.curve pe = .ok () ∧ DH.verify3 E.dh3 pd = .ok () ∧
      anyNonzero (ecdh.sharedSecret E pe).encode = true ∧ Mixed.nextBrace E dh pd third prev = .ok s.brace ∧
      s = ⟨ecdh, dh, pe, pd, s.brace, kdf2 E 64 0x03 (ecdh.sharedSecret E pe).encode s.brace⟩ := by
  simp only [Mixed.next, Res.bind_eq_ok, Res.assert_eq_ok, Res.pure_def, Res.ok.injEq, exists_const] at h
  obtain ⟨_, h1, _, h2, h3, b, h4, rfl⟩ := h
  exact ⟨h1, h2, h3, h4, rfl⟩

theorem Mixed.next_of {E : Env} {ecdh : ECDHKeyPair} {dh : DH.Keypair} {pe : Point} {pd : Nat} {third : Bool}
    {prev b : Bytes} (h1 : Point.verify E.curve pe = .ok ()) (h2 : DH.verify3 E.dh3 pd = .ok ())
    (h3 : anyNonzero (ecdh.sharedSecret E pe).encode = true) (h4 : Mixed.nextBrace E dh pd third prev = .ok b) :
    Mixed.next E ecdh dh pe pd third prev =
      .ok ⟨ecdh, dh, pe, pd, b, kdf2 E 64 0x03 (ecdh.sharedSecret E pe).encode b⟩ := by
  simp [Mixed.next, h1, h2, h3, h4, Res.assert]

/-- What rotating our own keys does. -/
theorem DoubleRatchet.rotateSender_ok {E : Env} {d d' : DoubleRatchet} {r : Rand} {now : Nat}
    (h : d.rotateSender E r now = .ok d') :
    d.next = .sender ∧
    (∃ dh, Mixed.next E (ECDHKeyPair.generate E (r.bytes [1] 57)) dh d.shared.publicEcdh d.shared.publicDh
        (d.i % 3 == 0) d.shared.brace = .ok d'.shared ∧
      dh = if (d.i % 3 == 0) = true then DH.Keypair.generate3 E.dh3 (r.bytes [0] 80) else d.shared.dh) ∧
    d'.root = kdf2 E 64 0x12 d.root d'.shared.k ∧ d'.sender = ⟨kdf2 E 64 0x13 d.root d'.shared.k, 0⟩ ∧
    d'.receiver = d.receiver ∧ d'.next = .receiver ∧ d'.i.toNat = d.i.toNat + 1 ∧ d'.pn = d.sender.id ∧
    d'.reveals = d.reveals := by
  simp only [DoubleRatchet.rotateSender, Mixed.rotateKeypairs, Res.bind_eq_ok, Res.assert_eq_ok,
    Res.expect_eq_ok, Res.pure_def, Res.ok.injEq, exists_const, decide_eq_true_eq] at h
  obtain ⟨h1, s, h2, i, h3, rfl⟩ := h
  exact ⟨h1, ⟨_, h2, rfl⟩, rfl, rfl, rfl, rfl, (incId_inv h3).2.1, rfl, rfl⟩

theorem DoubleRatchet.rotateSenderChain_ok {E : Env} {d d' : DoubleRatchet} (h : d.rotateSenderChain E = .ok d') :
    d.next = .receiver ∧ d' = { d with sender := d'.sender } ∧ d'.sender.chain = kdf E 64 0x14 d.sender.chain ∧
      d'.sender.id.toNat = d.sender.id.toNat + 1 ∧ d.sender.id.toNat < 4294967295 := by
  simp only [DoubleRatchet.rotateSenderChain, Res.bind_eq_ok, Res.assert_eq_ok, Res.pure_def, Res.ok.injEq,
    exists_const, decide_eq_true_eq] at h
  obtain ⟨h1, s, h2, rfl⟩ := h
  obtain ⟨h3, h4, h5⟩ := Ratchet.rotate_ok h2
  exact ⟨h1, rfl, h3, h4, h5⟩

/-- What rotating the other party's keys does. -/
theorem DoubleRatchet.rotateReceiver_ok {E : Env} {d d' : DoubleRatchet} {pe : Point} {pd now : Nat}
    (h : d.rotateReceiver E pe pd now = .ok d') :
    d.next = .receiver ∧ pd ≠ 0 ∧ ((d.i % 3 == 0) = true ↔ pd ≠ d.shared.publicDh) ∧
    Mixed.next E d.shared.ecdh d.shared.dh pe pd (d.i % 3 == 0) d.shared.brace = .ok d'.shared ∧
    d'.root = kdf2 E 64 0x12 d.root d'.shared.k ∧ d'.receiver = ⟨kdf2 E 64 0x13 d.root d'.shared.k, 0⟩ ∧
    d'.sender = d.sender ∧ d'.next = .sender ∧ d'.i.toNat = d.i.toNat + 1 ∧ d'.pn = d.pn ∧
    d'.reveals = d.reveals := by
  simp only [DoubleRatchet.rotateReceiver, Mixed.rotateOthers, Res.bind_eq_ok, Res.assert_eq_ok,
    Res.pure_def, Res.ok.injEq, exists_const, decide_eq_true_eq, bne_iff_ne] at h
  obtain ⟨h1, h2, h3, s, ⟨_, h4⟩, i, h5, rfl⟩ := h
  refine ⟨h1, h2, ?_, h4, rfl, rfl, rfl, rfl, (incId_inv h5).2.1, rfl, rfl⟩
  rw [beq_iff_eq] at h3
  rw [h3, bne_iff_ne]

theorem DoubleRatchet.confirm_ok {E : Env} {d d' : DoubleRatchet} (h : d.confirmReceiver E = .ok d') :
    ∃ k, d.receiver.keys E = .ok k ∧ d' = { d with reveals := d.reveals ++ k.mac, receiver := d'.receiver } ∧
      d'.receiver.chain = kdf E 64 0x14 d.receiver.chain ∧ d'.receiver.id.toNat = d.receiver.id.toNat + 1 ∧
      d.receiver.id.toNat < 4294967295 := by
  simp only [DoubleRatchet.confirmReceiver, Res.bind_eq_ok, Res.pure_def, Res.ok.injEq] at h
  obtain ⟨k, h1, r, h2, rfl⟩ := h
  obtain ⟨h3, h4, h5⟩ := Ratchet.rotate_ok h2
  exact ⟨k, h1, rfl, h3, h4, h5⟩

/-! ## Sending -/

/-- The message built from the ratchet `d` after its rotation. -/
def built4 (E : Env) (our their : UInt32) (flags : UInt8) (content reveals : Bytes) (d : DoubleRatchet)
    (keys : RatchetKeys) : DataMessage4 :=
  let m : DataMessage4 := ⟨flags, d.pn, predSat d.i, d.sender.id, d.shared.ecdh.pub,
    if predSat d.i % 3 = 0 then some d.shared.dh.pub else .none, chachaCrypt E (encKey keys.enc) content,
    List.replicate 64 0, reveals⟩
  { m with authenticator := kdf2 E 64 0x18 keys.mac (authenticatorData4 4 our their m) }

theorem ratchetForSend_ok {E : Env} {d d1 : DoubleRatchet} {reveals rv : Bytes} {r : Rand} {now : Nat}
    (h : ratchetForSend E d reveals r now = .ok (rv, d1)) :
    (d.next = .sender ∧ rv = reveals ++ d.reveals ∧
      ({ d with reveals := [] } : DoubleRatchet).rotateSender E r now = .ok d1) ∨
    (d.next = .receiver ∧ rv = reveals ∧ d1 = d) := by
  unfold ratchetForSend at h
  split at h
  · rename_i hn
    simp only [Res.bind_eq_ok, Res.pure_def, Res.ok.injEq, Prod.mk.injEq] at h
    obtain ⟨d', h1, h2, rfl⟩ := h
    exact .inl ⟨hn, h2.symm, h1⟩
  · rename_i hn
    simp only [Res.ok.injEq, Prod.mk.injEq] at h
    refine .inr ⟨?_, h.1.symm, h.2.symm⟩
    cases hd : d.next
    · exact absurd hd hn
    · rfl

theorem encrypt4_ok {E : Env} {our their : UInt32} {flags : UInt8} {content reveals : Bytes} {r : Rand}
    {now : Nat} {d d' : DoubleRatchet} {m : DataMessage4}
    (h : encrypt4 E our their flags content reveals r now d = .ok (m, d')) :
    ∃ rv d1 keys, ratchetForSend E d reveals r now = .ok (rv, d1) ∧ d1.sender.keys E = .ok keys ∧
      m = built4 E our their flags content rv d1 keys ∧ m.validate E = .ok () ∧ d1.rotateSenderChain E = .ok d' := by
  simp only [encrypt4, Res.bind_eq_ok, Res.assert_eq_ok, Res.pure_def, Res.ok.injEq, exists_const,
    Prod.mk.injEq, Prod.exists] at h
  obtain ⟨rv, d1, h1, keys, h2, h3, d2, h4, h5, rfl⟩ := h
  refine ⟨rv, d1, keys, h1, h2, h5.symm, ?_, h4⟩
  rw [h5] at h3
  cases hv : m.validate E <;> simp_all [Res.isOk]

/-! ## Receiving -/

/-- The ratchet on which a received message is tried. -/
theorem speculate4_ok {E : Env} {m : DataMessage4} {now : Nat} {d s : DoubleRatchet}
    (h : speculate4 E m now d = .ok s) :
    (m.i = d.i ∧ d.next = .receiver ∧ ((m.i % 3 == 0) = m.dh.isSome) ∧ m.dh ≠ some d.shared.publicDh ∧
      d.rotateReceiver E m.ecdh (m.dh.getD d.shared.publicDh) now = .ok s) ∨
    (m.i.toNat + 1 = d.i.toNat ∧ d.receiver.id.toNat ≤ m.j.toNat ∧ s = d) := by
  unfold speculate4 at h
  split at h
  · simp at h
  · rename_i h1
    split at h
    · simp at h
    · rename_i h2
      simp only [gt_iff_lt, UInt32.lt_iff_toNat_lt, Nat.not_lt] at h1
      simp only [UInt32.lt_iff_toNat_lt, not_or, not_and, Nat.not_lt, predSat_toNat] at h2
      split at h
      · rename_i h3
        split at h
        · simp at h
        · rename_i h4
          simp only [Res.bind_eq_ok, Res.assert_eq_ok, exists_const, beq_iff_eq] at h
          obtain ⟨h5, h6⟩ := h
          split at h6
          · simp at h6
          · rename_i h7
            exact .inl ⟨h3, by simpa using h4, h5, h7, h6⟩
      · rename_i h3
        simp only [Res.ok.injEq] at h
        have hne : m.i.toNat ≠ d.i.toNat := fun e => h3 (UInt32.toNat_inj.mp e)
        have he : m.i.toNat + 1 = d.i.toNat := by omega
        refine .inr ⟨he, h2.2 (UInt32.toNat_inj.mp ?_), h.symm⟩
        rw [predSat_toNat]
        omega

/-- An accepted message: the position, the key and the new ratchet. -/
theorem decrypt4_ok {E : Env} {m : DataMessage4} {ad plain : Bytes} {now : Nat} {d d' : DoubleRatchet}
    (h : decrypt4 E m ad now d = .ok (plain, d')) :
    ∃ s keys, speculate4 E m now d = .ok s ∧ s.receiver.id.toNat ≤ m.j.toNat ∧
      (⟨chainFwd E (m.j.toNat - s.receiver.id.toNat) s.receiver.chain, m.j⟩ : Ratchet).keys E = .ok keys ∧
      kdf2 E 64 0x18 keys.mac ad = m.authenticator ∧ anyNonzero m.authenticator = true ∧
      plain = chachaCrypt E (encKey keys.enc) m.encrypted ∧ m.j.toNat < 4294967295 ∧
      d' = { s with reveals := s.reveals ++ keys.mac
                    receiver := ⟨chainFwd E (m.j.toNat - s.receiver.id.toNat + 1) s.receiver.chain, m.j + 1⟩ } := by
  simp only [decrypt4, Res.bind_eq_ok, Res.pure_def, Res.ok.injEq, Prod.mk.injEq] at h
  obtain ⟨s, h1, r, h2, keys, h3, _, h4, s', h5, h6, rfl⟩ := h
  have hle : s.receiver.id.toNat ≤ m.j.toNat := by
    rcases speculate4_ok h1 with ⟨_, _, _, _, hr⟩ | ⟨_, hr, rfl⟩
    · obtain ⟨_, _, _, _, _, hrec, _⟩ := DoubleRatchet.rotateReceiver_ok hr
      rw [hrec]
      exact Nat.zero_le _
    · exact hr
  rw [Ratchet.forward_to E s.receiver m.j hle] at h2
  simp only [Res.ok.injEq] at h2
  subst h2
  obtain ⟨h7, h8⟩ := compareBytes_ok_iff.mp h4
  obtain ⟨k', hk', h9, h10, h11, h12⟩ := DoubleRatchet.confirm_ok h5
  simp only at hk' h10 h11 h12
  rw [h3] at hk'
  simp only [Res.ok.injEq] at hk'
  subst hk'
  refine ⟨s, keys, h1, hle, h3, h7, h7 ▸ h8, h6.symm, h12, ?_⟩
  rw [h9]
  have e1 : s'.receiver = ⟨chainFwd E (m.j.toNat - s.receiver.id.toNat + 1) s.receiver.chain, m.j + 1⟩ := by
    have e2 : s'.receiver.id = m.j + 1 := UInt32.toNat_inj.mp (by rw [h11, (incId_of_lt h12).2])
    rw [chainFwd_succ, ← h10, ← e2]
  rw [e1]

end Otrr
