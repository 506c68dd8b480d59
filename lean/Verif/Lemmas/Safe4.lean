import Verif.Lemmas.Pair4
import Verif.Lemmas.Smp4Run
/-! # OTRv4 data messages do not panic: the invariant of a session -/

namespace Otrr
open Spec Edwards

/-! ## Shared secrets are not all zero -/

theorem shared_nonzero {E : Env} (hc : GoodCurve E.curve) {P : Point} (hP : GoodKey E.curve P) (k : ECDHKeyPair) :
    anyNonzero (k.sharedSecret E P).encode = true := by
  have := Fact.mk hc.field.prime
  have := hc.field.good
  have := hP.inSub.mul k.priv
  exact encode_nonzero hc this.1 this.2

/-! ## The invariant -/

/-- An output of the hash function of at least 32 bytes. -/
def HashOut (E : Env) (b : Bytes) : Prop := ∃ n x, 32 ≤ n ∧ b = E.shake n x

theorem HashOut.kdf (E : Env) {n : Nat} (h : 32 ≤ n) (u : UInt8) (x : Bytes) : HashOut E (kdf E n u x) := ⟨n, _, h, rfl⟩

theorem HashOut.kdf2 (E : Env) {n : Nat} (h : 32 ≤ n) (u : UInt8) (x y : Bytes) : HashOut E (kdf2 E n u x y) := ⟨n, _, h, rfl⟩

theorem HashOut.fwd {E : Env} : ∀ (n : Nat) {b : Bytes}, HashOut E b → HashOut E (chainFwd E n b)
  | 0, _, h => h
  | n + 1, _, _ => HashOut.fwd n (.kdf E (by omega) _ _)

theorem HashOut.ne {E : Env} (hz : NoZeroHash E) {b : Bytes} (h : HashOut E b) : anyNonzero b = true := by
  obtain ⟨n, x, h1, rfl⟩ := h
  exact anyNonzero_iff.mpr (hz n x h1)

/-- What holds of the ratchet at any point of the life of a session. -/
structure Safe4 (E : Env) (d : DoubleRatchet) : Prop where
  peer : GoodKey E.curve d.shared.publicEcdh
  peerDh : DH.verify3 E.dh3 d.shared.publicDh = .ok ()
  own : Point.verify E.curve d.shared.ecdh.pub = .ok ()
  ownDh : DH.verify3 E.dh3 d.shared.dh.pub = .ok ()
  brace : HashOut E d.shared.brace
  snd : d.next = .receiver → HashOut E d.sender.chain
  rcv : d.i.toNat ≠ 0 → HashOut E d.receiver.chain
  zero : d.next = .sender → d.i.toNat ≠ 0
  rev : d.reveals.length % 64 = 0
  first : d.next = .receiver → 1 < d.i.toNat → d.sender.id.toNat ≠ 0

/-- The same without the own keys, which depend on the random source. -/
structure Weak4 (E : Env) (d : DoubleRatchet) : Prop where
  peer : GoodKey E.curve d.shared.publicEcdh
  peerDh : DH.verify3 E.dh3 d.shared.publicDh = .ok ()
  brace : HashOut E d.shared.brace
  snd : d.next = .receiver → HashOut E d.sender.chain
  rcv : d.i.toNat ≠ 0 → HashOut E d.receiver.chain
  zero : d.next = .sender → d.i.toNat ≠ 0
  rev : d.reveals.length % 64 = 0
  first : d.next = .receiver → 1 < d.i.toNat → d.sender.id.toNat ≠ 0

theorem Safe4.weak {E : Env} {d : DoubleRatchet} (I : Safe4 E d) : Weak4 E d :=
  ⟨I.peer, I.peerDh, I.brace, I.snd, I.rcv, I.zero, I.rev, I.first⟩

/-- MAC keys to reveal are at hand when the client is about to rotate its keys. -/
def HasReveals (d : DoubleRatchet) : Prop := d.next = .sender → d.reveals ≠ []

theorem goodKey_of_verify {c : Curve} {P : Point} (h : Point.verify c P = .ok ()) (hP : OnCurve c P) : GoodKey c P := by
  unfold Point.verify at h
  split at h
  · simp at h
  · rename_i hn
    simp only [Bool.or_eq_true, decide_eq_true_eq, Bool.not_eq_true', not_or, Bool.not_eq_true, Bool.not_eq_false,
      ge_iff_le, Nat.not_le] at hn
    refine ⟨hP, ?_, Point.isIdentity_iff.mp hn.2⟩
    intro e
    have := Point.isIdentity_iff.mpr e
    rw [hn.1.1.1] at this
    cases this

theorem verify_of_goodKey {c : Curve} {P : Point} (h : GoodKey c P) : Point.verify c P = .ok () := by
  unfold Point.verify
  rw [if_neg]
  simp only [Bool.or_eq_true, decide_eq_true_eq, Bool.not_eq_true', not_or, Bool.not_eq_true, Bool.not_eq_false,
    ge_iff_le, Nat.not_le]
  refine ⟨⟨⟨?_, h.on.x_lt⟩, h.on.y_lt⟩, Point.isIdentity_iff.mpr h.order⟩
  cases hi : P.isIdentity
  · rfl
  · exact absurd (Point.isIdentity_iff.mp hi) h.ne

theorem verify3_of_good {E : Env} {v : Nat} (h : GoodDh E v) : DH.verify3 E.dh3 v = .ok () := by
  unfold DH.verify3 modpow
  obtain ⟨h1, h2, h3⟩ := h
  rw [if_neg]
  rintro (h | h | h)
  · omega
  · omega
  · exact h h3

theorem Mixed.next_hash {E : Env} {ecdh : ECDHKeyPair} {dh : DH.Keypair} {pe : Point} {pd : Nat} {third : Bool}
    {prev : Bytes} {s : Mixed} (h : Mixed.next E ecdh dh pe pd third prev = .ok s) : HashOut E s.brace := by
  obtain ⟨_, _, _, h4, _⟩ := Mixed.next_ok h
  rcases Mixed.nextBrace_ok h4 with ⟨_, h5⟩ | ⟨_, _, h5⟩ <;> rw [h5] <;> exact .kdf E (by omega) _ _

/-- Sending preserves the invariant. -/
theorem Safe4.send {E : Env} {our their : UInt32} {flags : UInt8} {content reveals : Bytes} {r : Rand} {now : Nat}
    {d d' : DoubleRatchet} {m : DataMessage4} (I : Safe4 E d)
    (h : encrypt4 E our their flags content reveals r now d = .ok (m, d')) : Safe4 E d' ∧ HasReveals d' := by
  obtain ⟨rv, d1, keys, h1, h2, h3, h4, h5⟩ := encrypt4_ok h
  obtain ⟨h6, h7, h8, h9, h10⟩ := DoubleRatchet.rotateSenderChain_ok h5
  have e0 : d'.shared = d1.shared := by rw [h7]
  have e1 : d'.i = d1.i := by rw [h7]
  have e2 : d'.receiver = d1.receiver := by rw [h7]
  have e3 : d'.next = .receiver := by rw [h7]; exact h6
  have e4 : d'.reveals = d1.reveals := by rw [h7]
  obtain ⟨v1, v2, v3, _⟩ := validate_ok h4
  have me : m.ecdh = d1.shared.ecdh.pub := by rw [h3]; rfl
  refine ⟨?_, fun hn => by rw [e3] at hn; cases hn⟩
  have hsnd : d'.next = .receiver → HashOut E d'.sender.chain := fun _ => by rw [h8]; exact .kdf E (by omega) _ _
  have hfirst : d'.next = .receiver → 1 < d'.i.toNat → d'.sender.id.toNat ≠ 0 := fun _ _ => by omega
  rcases ratchetForSend_ok h1 with ⟨n1, n2, n3⟩ | ⟨n1, n2, n3⟩
  · obtain ⟨_, ⟨dh, r1, r1'⟩, _, r3, r4, r5, r6, _, r7⟩ := DoubleRatchet.rotateSender_ok n3
    simp only at r1 r4 r6 r7 r1'
    obtain ⟨_, _, _, _, rs⟩ := Mixed.next_ok r1
    have p1 : d1.shared.publicEcdh = d.shared.publicEcdh := by rw [rs]
    have p2 : d1.shared.publicDh = d.shared.publicDh := by rw [rs]
    have p3 : d1.shared.dh = dh := by rw [rs]
    refine ⟨?_, ?_, ?_, ?_, ?_, hsnd, ?_, ?_, ?_, hfirst⟩
    · rw [e0, p1]; exact I.peer
    · rw [e0, p2]; exact I.peerDh
    · rw [e0, ← me]; exact v3
    · rw [e0, p3, r1']
      split
      · rename_i ht
        have hm : m.dh = some d1.shared.dh.pub := by
          rw [h3]
          show (if predSat d1.i % 3 = 0 then some d1.shared.dh.pub else .none) = _
          rw [if_pos]
          have : predSat d1.i = d.i := UInt32.toNat_inj.mp (by rw [predSat_toNat, r6]; omega)
          rw [this]
          exact beq_iff_eq.mp ht
        have := v2 _ hm
        rwa [p3, r1', if_pos ht] at this
      · exact I.ownDh
    · rw [e0]; exact Mixed.next_hash r1
    · rw [e2, r4]
      intro _
      exact I.rcv (I.zero n1)
    · intro hn; rw [e3] at hn; cases hn
    · rw [e4, r7]; rfl
  · subst n3
    refine ⟨?_, ?_, ?_, ?_, ?_, hsnd, ?_, ?_, ?_, hfirst⟩
    · rw [e0]; exact I.peer
    · rw [e0]; exact I.peerDh
    · rw [e0]; exact I.own
    · rw [e0]; exact I.ownDh
    · rw [e0]; exact I.brace
    · rw [e1, e2]; exact I.rcv
    · intro hn; rw [e3] at hn; cases hn
    · rw [e4]; exact I.rev

/-- Accepting a message preserves the invariant. -/
theorem Safe4.recv {E : Env} {m : DataMessage4} {ad plain : Bytes} {now : Nat} {d d' : DoubleRatchet} (I : Safe4 E d)
    (hon : OnCurve E.curve m.ecdh) (h : decrypt4 E m ad now d = .ok (plain, d')) : Safe4 E d' ∧ HasReveals d' := by
  obtain ⟨s, keys, h1, h2, h3, _, _, _, _, rfl⟩ := decrypt4_ok h
  obtain ⟨_, _, k3⟩ := Ratchet.keys_ok h3
  have hl : keys.mac.length = 64 := by rw [k3]; exact kdf_length _ _ _ _
  have hrev : HasReveals { s with
      reveals := s.reveals ++ keys.mac
      receiver := ⟨chainFwd E (m.j.toNat - s.receiver.id.toNat + 1) s.receiver.chain, m.j + 1⟩ } := by
    intro _ hn
    have := congrArg List.length hn
    simp only [List.length_append, List.length_nil] at this
    omega
  have hrcv : HashOut E (chainFwd E (m.j.toNat - s.receiver.id.toNat + 1) s.receiver.chain) := by
    rw [chainFwd]
    exact .fwd _ (.kdf E (by omega) _ _)
  refine ⟨?_, hrev⟩
  rcases speculate4_ok h1 with ⟨_, n1, _, _, hr⟩ | ⟨n1, _, rfl⟩
  · obtain ⟨_, _, _, r1, _, r2, r3, r4, r5, _, r6⟩ := DoubleRatchet.rotateReceiver_ok hr
    obtain ⟨q1, q2, _, _, rs⟩ := Mixed.next_ok r1
    refine ⟨?_, ?_, ?_, ?_, ?_, ?_, fun _ => hrcv, ?_, ?_, ?_⟩
    · rw [rs]; exact goodKey_of_verify q1 hon
    · rw [rs]; exact q2
    · rw [rs]; exact I.own
    · rw [rs]; exact I.ownDh
    · exact Mixed.next_hash r1
    · intro hn
      simp only [r4] at hn
      cases hn
    · intro _
      simp only
      omega
    · have := I.rev
      simp only [List.length_append, r6, hl]
      omega
    · intro hn
      simp only [r4] at hn
      cases hn
  · refine ⟨I.peer, I.peerDh, I.own, I.ownDh, I.brace, I.snd, fun _ => hrcv, I.zero, ?_, I.first⟩
    have := I.rev
    simp only [List.length_append, hl]
    omega

/-- Sending preserves the invariant. -/
theorem Weak4.send {E : Env} {our their : UInt32} {flags : UInt8} {content reveals : Bytes} {r : Rand} {now : Nat}
    {d d' : DoubleRatchet} {m : DataMessage4} (I : Weak4 E d)
    (h : encrypt4 E our their flags content reveals r now d = .ok (m, d')) : Weak4 E d' ∧ HasReveals d' := by
  obtain ⟨rv, d1, keys, h1, h2, h3, h4, h5⟩ := encrypt4_ok h
  obtain ⟨h6, h7, h8, h9, h10⟩ := DoubleRatchet.rotateSenderChain_ok h5
  have e0 : d'.shared = d1.shared := by rw [h7]
  have e1 : d'.i = d1.i := by rw [h7]
  have e2 : d'.receiver = d1.receiver := by rw [h7]
  have e3 : d'.next = .receiver := by rw [h7]; exact h6
  have e4 : d'.reveals = d1.reveals := by rw [h7]
  refine ⟨?_, fun hn => by rw [e3] at hn; cases hn⟩
  have hsnd : d'.next = .receiver → HashOut E d'.sender.chain := fun _ => by rw [h8]; exact .kdf E (by omega) _ _
  have hfirst : d'.next = .receiver → 1 < d'.i.toNat → d'.sender.id.toNat ≠ 0 := fun _ _ => by omega
  rcases ratchetForSend_ok h1 with ⟨n1, n2, n3⟩ | ⟨n1, n2, n3⟩
  · obtain ⟨_, ⟨dh, r1, r1'⟩, _, r3, r4, r5, r6, _, r7⟩ := DoubleRatchet.rotateSender_ok n3
    simp only at r1 r4 r6 r7 r1'
    obtain ⟨_, _, _, _, rs⟩ := Mixed.next_ok r1
    have p1 : d1.shared.publicEcdh = d.shared.publicEcdh := by rw [rs]
    have p2 : d1.shared.publicDh = d.shared.publicDh := by rw [rs]
    refine ⟨?_, ?_, ?_, hsnd, ?_, ?_, ?_, hfirst⟩
    · rw [e0, p1]; exact I.peer
    · rw [e0, p2]; exact I.peerDh
    · rw [e0]; exact Mixed.next_hash r1
    · rw [e2, r4]
      intro _
      exact I.rcv (I.zero n1)
    · intro hn; rw [e3] at hn; cases hn
    · rw [e4, r7]; rfl
  · subst n3
    refine ⟨?_, ?_, ?_, hsnd, ?_, ?_, ?_, hfirst⟩
    · rw [e0]; exact I.peer
    · rw [e0]; exact I.peerDh
    · rw [e0]; exact I.brace
    · rw [e1, e2]; exact I.rcv
    · intro hn; rw [e3] at hn; cases hn
    · rw [e4]; exact I.rev

/-- Accepting a message preserves the invariant. -/
theorem Weak4.recv {E : Env} {m : DataMessage4} {ad plain : Bytes} {now : Nat} {d d' : DoubleRatchet} (I : Weak4 E d)
    (hon : OnCurve E.curve m.ecdh) (h : decrypt4 E m ad now d = .ok (plain, d')) : Weak4 E d' ∧ HasReveals d' := by
  obtain ⟨s, keys, h1, h2, h3, _, _, _, _, rfl⟩ := decrypt4_ok h
  obtain ⟨_, _, k3⟩ := Ratchet.keys_ok h3
  have hl : keys.mac.length = 64 := by rw [k3]; exact kdf_length _ _ _ _
  have hrev : HasReveals { s with
      reveals := s.reveals ++ keys.mac
      receiver := ⟨chainFwd E (m.j.toNat - s.receiver.id.toNat + 1) s.receiver.chain, m.j + 1⟩ } := by
    intro _ hn
    have := congrArg List.length hn
    simp only [List.length_append, List.length_nil] at this
    omega
  have hrcv : HashOut E (chainFwd E (m.j.toNat - s.receiver.id.toNat + 1) s.receiver.chain) := by
    rw [chainFwd]
    exact .fwd _ (.kdf E (by omega) _ _)
  refine ⟨?_, hrev⟩
  rcases speculate4_ok h1 with ⟨_, n1, _, _, hr⟩ | ⟨n1, _, rfl⟩
  · obtain ⟨_, _, _, r1, _, r2, r3, r4, r5, _, r6⟩ := DoubleRatchet.rotateReceiver_ok hr
    obtain ⟨q1, q2, _, _, rs⟩ := Mixed.next_ok r1
    refine ⟨?_, ?_, ?_, ?_, fun _ => hrcv, ?_, ?_, ?_⟩
    · rw [rs]; exact goodKey_of_verify q1 hon
    · rw [rs]; exact q2
    · exact Mixed.next_hash r1
    · intro hn
      simp only [r4] at hn
      cases hn
    · intro _
      simp only
      omega
    · have := I.rev
      simp only [List.length_append, r6, hl]
      omega
    · intro hn
      simp only [r4] at hn
      cases hn
  · refine ⟨I.peer, I.peerDh, I.brace, I.snd, fun _ => hrcv, I.zero, ?_, I.first⟩
    have := I.rev
    simp only [List.length_append, hl]
    omega

/-- The invariant holds at the start, without the own keys. -/
theorem fresh4_weak {E : Env} {ecdh : ECDHKeyPair} {dh : DH.Keypair} {pe : Point} {pd : Nat} {shared : Mixed} {root : Bytes} {now : Nat}
    {d : DoubleRatchet} (h1 : Mixed.new E ecdh dh pe pd = .ok shared) (h4 : OnCurve E.curve pe)
    (h5 : d = DoubleRatchet.init E .sender shared root now ∨
      ∃ rnd now', (DoubleRatchet.init E .receiver shared root now).rotateSender E rnd now' = .ok d) : Weak4 E d ∧ HasReveals d := by
  obtain ⟨q1, q2, _, _, rs⟩ := Mixed.next_ok h1
  have hb := Mixed.next_hash h1
  have p1 : shared.publicEcdh = pe := by rw [rs]
  have p2 : shared.publicDh = pd := by rw [rs]
  have hp : GoodKey E.curve shared.publicEcdh := by rw [p1]; exact goodKey_of_verify q1 h4
  have hpd : DH.verify3 E.dh3 shared.publicDh = .ok () := by rw [p2]; exact q2
  rcases h5 with h5 | ⟨rnd, now', h5⟩
  · rw [h5]
    refine ⟨⟨hp, hpd, hb, fun _ => .kdf2 E (by omega) _ _ _, ?_, ?_, rfl, ?_⟩, ?_⟩
    · intro h; exact absurd rfl h
    · intro h; cases h
    · intro _ h
      exact absurd h (by show ¬ 1 < (0 : UInt32).toNat; decide)
    · intro h; cases h
  · obtain ⟨_, ⟨dh', r1, r1'⟩, _, r3, r4, r5, r6, _, r7⟩ := DoubleRatchet.rotateSender_ok h5
    obtain ⟨_, _, _, _, rs'⟩ := Mixed.next_ok r1
    simp only [DoubleRatchet.init] at r1' r4 r6 r7 rs' h5
    refine ⟨⟨?_, ?_, Mixed.next_hash r1, ?_, ?_, ?_, ?_, ?_⟩, ?_⟩
    · rw [rs']; exact hp
    · rw [rs']; exact hpd
    · intro _
      rw [r3]; exact .kdf2 E (by omega) _ _ _
    · intro _
      rw [r4]; exact .kdf2 E (by omega) _ _ _
    · intro hn; rw [r5] at hn; cases hn
    · rw [r7]; rfl
    · intro _ hi
      rw [r6] at hi
      exact absurd hi (by decide)
    · intro hn; rw [r5] at hn; cases hn

/-- The invariant holds at the start. -/
theorem begun4_safe {E : Env} {s : Enc4} (h : Begun4 E s) : Safe4 E s.ratchet ∧ HasReveals s.ratchet := by
  obtain ⟨ecdh, dh, pe, pd, shared, root, now, h1, h2, h3, h4, h5⟩ := h
  obtain ⟨q1, q2, _, _, rs⟩ := Mixed.next_ok h1
  have hb := Mixed.next_hash h1
  have p1 : shared.publicEcdh = pe := by rw [rs]
  have p2 : shared.publicDh = pd := by rw [rs]
  have p3 : shared.ecdh = ecdh := by rw [rs]
  have p4 : shared.dh = dh := by rw [rs]
  have hp : GoodKey E.curve shared.publicEcdh := by rw [p1]; exact goodKey_of_verify q1 h4
  have hpd : DH.verify3 E.dh3 shared.publicDh = .ok () := by rw [p2]; exact q2
  have ho : Point.verify E.curve shared.ecdh.pub = .ok () := by rw [p3]; exact verify_of_goodKey h2
  have hod : DH.verify3 E.dh3 shared.dh.pub = .ok () := by rw [p4]; exact verify3_of_good h3
  rcases h5 with h5 | ⟨rnd, now', hd, h5⟩
  · rw [h5]
    refine ⟨⟨hp, hpd, ho, hod, hb, fun _ => .kdf2 E (by omega) _ _ _, ?_, ?_, rfl, ?_⟩, ?_⟩
    · intro h; exact absurd rfl h
    · intro h; cases h
    · intro _ h
      exact absurd h (by show ¬ 1 < (0 : UInt32).toNat; decide)
    · intro h; cases h
  · obtain ⟨_, ⟨dh', r1, r1'⟩, _, r3, r4, r5, r6, _, r7⟩ := DoubleRatchet.rotateSender_ok h5
    obtain ⟨_, _, _, _, rs'⟩ := Mixed.next_ok r1
    simp only [DoubleRatchet.init] at r1' r4 r6 r7 rs' h5
    refine ⟨⟨?_, ?_, ?_, ?_, Mixed.next_hash r1, ?_, ?_, ?_, ?_, ?_⟩, ?_⟩
    · rw [rs']; exact hp
    · rw [rs']; exact hpd
    · rw [rs']; exact verify_of_goodKey hd.1
    · rw [rs', r1']; exact verify3_of_good hd.2
    · intro _
      rw [r3]; exact .kdf2 E (by omega) _ _ _
    · intro _
      rw [r4]; exact .kdf2 E (by omega) _ _ _
    · intro hn; rw [r5] at hn; cases hn
    · rw [r7]; rfl
    · intro _ hi
      rw [r6] at hi
      exact absurd hi (by decide)
    · intro hn; rw [r5] at hn; cases hn

theorem life4_safe {E : Env} {s₀ s : Enc4} {h : List Ev4} (hb : Begun4 E s₀) (hl : Life4 E s₀ h s) (hp : GotPoints E h) :
    Safe4 E s.ratchet ∧ HasReveals s.ratchet := by
  induction hl with
  | start => exact begun4_safe hb
  | send _ he ih =>
    have := ih fun m ad r hm => hp m ad r (List.mem_append_left _ hm)
    exact this.1.send (encrypt4_enc he).1
  | bye _ he ih =>
    have I := (ih fun m ad r hm => hp m ad r (List.mem_append_left _ hm)).1
    have h1 := (disconnect4_enc he).1
    refine Safe4.send ?_ h1
    exact ⟨I.peer, I.peerDh, I.own, I.ownDh, I.brace, I.snd, I.rcv, I.zero, rfl, I.first⟩
  | recv _ he hr ih =>
    have I := ih fun m ad r hm => hp m ad r (List.mem_append_left _ hm)
    rcases handle4_cases he hr with ⟨_, e, _⟩ | ⟨plain, d', h1, e, _⟩
    · rw [e]; exact I
    · rw [e]
      exact I.1.recv (hp _ _ _ (List.mem_append_right _ (List.mem_singleton.mpr rfl))) h1

/-! ## No panic -/

theorem nextBrace_total {E : Env} {prev : Bytes} (h : anyNonzero prev = true) (dh : DH.Keypair) (pd : Nat) (third : Bool) :
    ∃ b, Mixed.nextBrace E dh pd third prev = .ok b := by
  unfold Mixed.nextBrace
  cases third
  · exact ⟨kdf E 32 0x02 prev, by simp [h]⟩
  · exact ⟨_, rfl⟩

theorem next_total {E : Env} (hc : GoodCurve E.curve) {pe : Point} {pd : Nat} {prev : Bytes} (h1 : GoodKey E.curve pe)
    (h2 : DH.verify3 E.dh3 pd = .ok ()) (h3 : anyNonzero prev = true) (ecdh : ECDHKeyPair) (dh : DH.Keypair) (third : Bool) :
    ∃ s, Mixed.next E ecdh dh pe pd third prev = .ok s := by
  obtain ⟨b, hb⟩ := nextBrace_total (E := E) h3 dh pd third
  exact ⟨_, Mixed.next_of (verify_of_goodKey h1) h2 (shared_nonzero hc h1 ecdh) hb⟩

theorem next_total' {E : Env} (hc : GoodCurve E.curve) {pe : Point} {pd : Nat} {prev : Bytes} (h1 : GoodKey E.curve pe)
    (h2 : DH.verify3 E.dh3 pd = .ok ()) (ecdh : ECDHKeyPair) (dh : DH.Keypair) (third : Bool) (h3 : third = false → anyNonzero prev = true) :
    ∃ s, Mixed.next E ecdh dh pe pd third prev = .ok s := by
  have hb : ∃ b, Mixed.nextBrace E dh pd third prev = .ok b := by
    cases third with
    | true => exact ⟨_, rfl⟩
    | false => exact nextBrace_total (h3 rfl) dh pd false
  obtain ⟨b, hb⟩ := hb
  exact ⟨_, Mixed.next_of (verify_of_goodKey h1) h2 (shared_nonzero hc h1 ecdh) hb⟩

theorem rotateReceiver_total {E : Env} (hc : GoodCurve E.curve) (hg : GoodGroup E.dh3) {d : DoubleRatchet} (I : Weak4 E d)
    {m : DataMessage4} (hv : m.validate E = .ok ()) (hon : OnCurve E.curve m.ecdh) (hi : d.i.toNat < 4294967295)
    (hb : (d.i % 3 == 0) = false → anyNonzero d.shared.brace = true) (h1 : m.i = d.i) (h2 : d.next = .receiver)
    (h3 : m.dh ≠ some d.shared.publicDh) (now : Nat) :
    ∃ s, d.rotateReceiver E m.ecdh (m.dh.getD d.shared.publicDh) now = .ok s := by
  obtain ⟨v1, v2, v3, _⟩ := validate_ok hv
  have hpd : DH.verify3 E.dh3 (m.dh.getD d.shared.publicDh) = .ok () := by
    cases hd : m.dh with
    | none => exact I.peerDh
    | some v => exact v2 v hd
  have ht : (d.i % 3 == 0) = (m.dh.getD d.shared.publicDh != d.shared.publicDh) := by
    rw [← h1, v1]
    cases hd : m.dh with
    | none => simp
    | some v =>
      rw [hd] at h3
      have : v ≠ d.shared.publicDh := fun e => h3 (by rw [e])
      simp [this]
  obtain ⟨s, hs⟩ := next_total' hc (goodKey_of_verify v3 hon) hpd d.shared.ecdh d.shared.dh (d.i % 3 == 0) hb
  have hnz : (m.dh.getD d.shared.publicDh != 0) = true := by simpa using verify3_pos hg hpd
  have ht' : ((d.i % 3 == 0) == (m.dh.getD d.shared.publicDh != d.shared.publicDh)) = true := by rw [ht]; exact beq_self_eq_true _
  refine ⟨{ d with
    created := now
    shared := s
    root := kdf2 E 64 0x12 d.root s.k
    receiver := ⟨kdf2 E 64 0x13 d.root s.k, 0⟩
    next := .sender
    i := d.i + 1 }, ?_⟩
  unfold DoubleRatchet.rotateReceiver Mixed.rotateOthers
  simp only [h2, decide_true, hnz, ht', Res.assert, if_true, Res.bind_ok, hs, (incId_of_lt hi).1]
  rfl

theorem triesWith_of {E : Env} {m : DataMessage4} {now : Nat} {d s : DoubleRatchet} (h : speculate4 E m now d = .ok s) :
    TriesWith E m now d s := by
  rcases speculate4_ok h with ⟨h1, h2, _, h3, h4⟩ | h
  · exact .inr ⟨h1, h2, h3, h4⟩
  · exact .inl h

/-- Receiving does not panic, but for the causes listed. -/
theorem decrypt4_safe {E : Env} (hc : GoodCurve E.curve) (hg : GoodGroup E.dh3) {d : DoubleRatchet} (I : Weak4 E d)
    {m : DataMessage4} (hv : m.validate E = .ok ()) (hon : OnCurve E.curve m.ecdh) (ad : Bytes) (now : Nat)
    (hn : ¬ Fatal4 E m ad now d) : decrypt4 E m ad now d ≠ .panic := by
  have hsp : speculate4 E m now d ≠ .panic := by
    unfold speculate4
    split
    · simp
    · split
      · simp
      · split
        · rename_i h3
          split
          · simp
          · rename_i h4
            have h4' : d.next = .receiver := by simpa using h4
            obtain ⟨v1, _⟩ := validate_ok hv
            have : Res.assert ((m.i % 3 == 0) == m.dh.isSome) = .ok () := by rw [v1]; simp [Res.assert]
            rw [this, Res.bind_ok]
            split
            · simp
            · rename_i h5
              obtain ⟨s, hs⟩ := rotateReceiver_total hc hg I hv hon (by
                have := d.i.toNat_lt
                have : d.i.toNat ≠ 2 ^ 32 - 1 := fun e => hn (.ratchets h3 h4' h5 e)
                omega) (fun h => by
                  by_contra hz
                  exact hn (.brace h3 h4' h5 (by simpa using h) fun hx => hz (anyNonzero_iff.mpr hx))) h3 h4' h5 now
              rw [hs]
              simp
        · simp
  unfold decrypt4
  cases hs : speculate4 E m now d with
  | panic => exact absurd hs hsp
  | err e => simp
  | ok s =>
    have hle : s.receiver.id.toNat ≤ m.j.toNat := by
      rcases speculate4_ok hs with ⟨_, _, _, _, hr⟩ | ⟨_, hr, rfl⟩
      · obtain ⟨_, _, _, _, _, hrec, _⟩ := DoubleRatchet.rotateReceiver_ok hr
        rw [hrec]
        exact Nat.zero_le _
      · exact hr
    have hkey : ∃ k, (⟨chainFwd E (m.j.toNat - s.receiver.id.toNat) s.receiver.chain, m.j⟩ : Ratchet).keys E = .ok k := by
      unfold Ratchet.keys
      exact ⟨_, if_pos (anyNonzero_iff.mpr (by_contra fun hx => hn (.chain (triesWith_of hs) hx)))⟩
    obtain ⟨k, hkey⟩ := hkey
    rw [Res.bind_ok, Ratchet.forward_to E s.receiver m.j hle, Res.bind_ok, hkey, Res.bind_ok]
    have hcmp : compareBytes (kdf2 E 64 0x18 k.mac ad) m.authenticator ≠ .panic := by
      unfold compareBytes verifyNonzero
      split
      · split
        · simp only [Res.bind_ok]
          split <;> simp
        · simp
      · simp
    cases hcm : compareBytes (kdf2 E 64 0x18 k.mac ad) m.authenticator with
    | panic => exact absurd hcm hcmp
    | err e => simp
    | ok u =>
      have hj : m.j.toNat < 4294967295 := by
        have := m.j.toNat_lt
        have : m.j.toNat ≠ 2 ^ 32 - 1 := fun e => hn (.last (triesWith_of hs) e (by
          obtain ⟨_, _, k2⟩ := Ratchet.keys_ok hkey
          rw [← (compareBytes_ok_iff.mp hcm).1, k2]))
        omega
      rw [Res.bind_ok]
      unfold DoubleRatchet.confirmReceiver
      simp only [hkey, Res.bind_ok, Ratchet.rotate_of_lt (E := E) (r := ⟨chainFwd E (m.j.toNat - s.receiver.id.toNat) s.receiver.chain, m.j⟩) hj]
      simp

/-- For each of the causes receiving panics. -/
theorem decrypt4_fatal {E : Env} (hc : GoodCurve E.curve) (hg : GoodGroup E.dh3) {d : DoubleRatchet} (I : Weak4 E d)
    (hz : d.i = 0 → d.receiver.id = 0) {m : DataMessage4} (hv : m.validate E = .ok ()) (hon : OnCurve E.curve m.ecdh) {ad : Bytes} {now : Nat}
    (hf : Fatal4 E m ad now d) : decrypt4 E m ad now d = .panic := by
  obtain ⟨v1, v2, v3, _, _, v4⟩ := validate_ok hv
  have hass : Res.assert ((m.i % 3 == 0) == m.dh.isSome) = .ok () := by rw [v1]; simp [Res.assert]
  have hnew : m.i = d.i → d.next = .receiver → m.dh ≠ some d.shared.publicDh →
      speculate4 E m now d = d.rotateReceiver E m.ecdh (m.dh.getD d.shared.publicDh) now := by
    intro h1 h2 h3
    unfold speculate4
    rw [if_neg, if_neg, if_pos h1, if_neg (by simp [h2]), hass, Res.bind_ok, if_neg h3]
    · rintro (h | ⟨h, h'⟩)
      · rw [h1, UInt32.lt_iff_toNat_lt, predSat_toNat] at h
        omega
      · have : d.i = 0 := by
          have := congrArg UInt32.toNat h
          rw [h1, predSat_toNat] at this
          exact UInt32.toNat_inj.mp (by show d.i.toNat = 0; omega)
        rw [hz this, UInt32.lt_iff_toNat_lt] at h'
        exact absurd h' (Nat.not_lt_zero _)
    · rw [h1, gt_iff_lt, UInt32.lt_iff_toNat_lt]
      omega
  have htry : ∀ {d1}, TriesWith E m now d d1 → speculate4 E m now d = .ok d1 ∧ d1.receiver.id.toNat ≤ m.j.toNat := by
    rintro d1 (⟨h1, h2, rfl⟩ | ⟨h1, h2, h3, h4⟩)
    · refine ⟨?_, h2⟩
      unfold speculate4
      rw [if_neg, if_neg, if_neg]
      · intro h; rw [h] at h1; omega
      · simp only [UInt32.lt_iff_toNat_lt, predSat_toNat]; omega
      · rw [gt_iff_lt, UInt32.lt_iff_toNat_lt]; omega
    · refine ⟨(hnew h1 h2 h3).trans h4, ?_⟩
      obtain ⟨_, _, _, _, _, hrec, _⟩ := DoubleRatchet.rotateReceiver_ok h4
      rw [hrec]
      exact Nat.zero_le _
  have hpd : DH.verify3 E.dh3 (m.dh.getD d.shared.publicDh) = .ok () := by
    cases hd : m.dh with
    | none => exact I.peerDh
    | some v => exact v2 v hd
  have hnz : (m.dh.getD d.shared.publicDh != 0) = true := by simpa using verify3_pos hg hpd
  have ht : m.i = d.i → m.dh ≠ some d.shared.publicDh → ((d.i % 3 == 0) == (m.dh.getD d.shared.publicDh != d.shared.publicDh)) = true := by
    intro h1 h3
    rw [← h1, v1]
    cases hd : m.dh with
    | none => simp
    | some v =>
      rw [hd] at h3
      have : v ≠ d.shared.publicDh := fun e => h3 (by rw [e])
      simp [this]
  have hrot : m.i = d.i → d.next = .receiver → m.dh ≠ some d.shared.publicDh → (∀ s, d.rotateReceiver E m.ecdh (m.dh.getD d.shared.publicDh) now ≠ .ok s) →
      (∀ e, d.rotateReceiver E m.ecdh (m.dh.getD d.shared.publicDh) now ≠ .err e) → decrypt4 E m ad now d = .panic := by
    intro h1 h2 h3 h4 h5
    unfold decrypt4
    rw [hnew h1 h2 h3]
    cases hr : d.rotateReceiver E m.ecdh (m.dh.getD d.shared.publicDh) now with
    | ok s => exact absurd hr (h4 s)
    | err e => exact absurd hr (h5 e)
    | panic => rfl
  have herr : m.i = d.i → d.next = .receiver → m.dh ≠ some d.shared.publicDh → ∀ e, d.rotateReceiver E m.ecdh (m.dh.getD d.shared.publicDh) now ≠ .err e := by
    intro h1 h2 h3 e
    have hs := shared_nonzero hc (goodKey_of_verify v3 hon) d.shared.ecdh
    unfold DoubleRatchet.rotateReceiver Mixed.rotateOthers Mixed.next
    simp only [h2, decide_true, hnz, ht h1 h3, Res.assert, if_true, Res.bind_ok, v3, hpd, hs]
    unfold Mixed.nextBrace
    cases (d.i % 3 == 0) <;> simp only [if_true, Bool.false_eq_true, if_false]
    · split
      · unfold incId
        simp only [Res.bind_ok, Res.pure_def]
        split <;> nofun
      · nofun
    · unfold incId
      simp only [Res.bind_ok, Res.pure_def]
      split <;> nofun
  cases hf with
  | ratchets h1 h2 h3 h4 =>
    refine hrot h1 h2 h3 (fun s hs => ?_) (herr h1 h2 h3)
    obtain ⟨_, _, _, _, _, _, _, _, h5, _⟩ := DoubleRatchet.rotateReceiver_ok hs
    have := s.i.toNat_lt
    omega
  | brace h1 h2 h3 h4 h5 =>
    refine hrot h1 h2 h3 (fun s hs => ?_) (herr h1 h2 h3)
    obtain ⟨_, _, _, h6, _⟩ := DoubleRatchet.rotateReceiver_ok hs
    obtain ⟨_, _, _, h7, _⟩ := Mixed.next_ok h6
    rcases Mixed.nextBrace_ok h7 with ⟨h8, _⟩ | ⟨_, h8, _⟩
    · exact h4 (by simpa using h8)
    · exact h5 (anyNonzero_iff.mp h8)
  | @chain d1 h1 h2 =>
    obtain ⟨h3, h4⟩ := htry h1
    unfold decrypt4
    rw [h3, Res.bind_ok, Ratchet.forward_to E d1.receiver m.j h4, Res.bind_ok]
    unfold Ratchet.keys
    rw [if_neg fun h => h2 (anyNonzero_iff.mp h)]
    rfl
  | @last d1 h1 h2 h5 =>
    obtain ⟨h3, h4⟩ := htry h1
    unfold decrypt4
    rw [h3, Res.bind_ok, Ratchet.forward_to E d1.receiver m.j h4, Res.bind_ok]
    by_cases hk : anyNonzero (chainFwd E (m.j.toNat - d1.receiver.id.toNat) d1.receiver.chain) = true
    · have hkey : (⟨chainFwd E (m.j.toNat - d1.receiver.id.toNat) d1.receiver.chain, m.j⟩ : Ratchet).keys E = .ok
          ⟨kdf E 64 0x15 (chainFwd E (m.j.toNat - d1.receiver.id.toNat) d1.receiver.chain),
            kdf E 64 0x16 (kdf E 64 0x15 (chainFwd E (m.j.toNat - d1.receiver.id.toNat) d1.receiver.chain)),
            kdf2 E 64 0x17 [0xff] (chainFwd E (m.j.toNat - d1.receiver.id.toNat) d1.receiver.chain)⟩ := if_pos hk
      rw [hkey, Res.bind_ok, compareBytes_ok_iff.mpr ⟨h5.symm, h5 ▸ v4⟩, Res.bind_ok]
      unfold DoubleRatchet.confirmReceiver
      simp only [hkey, Res.bind_ok]
      unfold Ratchet.rotate incId
      rw [if_pos (UInt32.toNat_inj.mp h2)]
      rfl
    · unfold Ratchet.keys
      rw [if_neg hk]
      rfl

theorem handle4_safe {E : Env} {m : DataMessage4} {ad : Bytes} {now : Nat} {s : Enc4}
    (h : decrypt4 E m ad now s.ratchet ≠ .panic) : (Enc4.handle E m ad now s).1 ≠ .panic := by
  unfold Enc4.handle Enc4.onRatchet
  cases hd : decrypt4 E m ad now s.ratchet with
  | panic => exact absurd hd h
  | err e => simp
  | ok x =>
    obtain ⟨plain, d'⟩ := x
    simp only
    cases hp : parseMessage plain with
    | panic => exact absurd hp (parseMessage_ne_panic _)
    | err e => simp
    | ok p => cases p <;> simp

theorem verify_iff448 {E : Env} {P : Point} : Point.verify E.curve P = .ok () ↔ Valid448 E P := by
  unfold Point.verify Valid448
  rw [← Point.isIdentity_iff, ne_eq, ← Point.isIdentity_iff]
  cases P.isIdentity <;> cases (Point.mul E.curve P E.curve.q).isIdentity <;> simp

theorem verify3_iff3072 {E : Env} {v : Nat} : DH.verify3 E.dh3 v = .ok () ↔ Valid3072 E v := by
  unfold DH.verify3 Valid3072 modpow
  by_cases h : v < E.dh3.g ∨ v > E.dh3.p - E.dh3.g ∨ ¬ v ^ E.dh3.q % E.dh3.p = 1
  · rw [if_pos h]
    constructor
    · nofun
    · rintro ⟨h1, h2, h3⟩
      rcases h with h | h | h
      · omega
      · omega
      · exact absurd h3 h
  · rw [if_neg h]
    simp only [not_or, Nat.not_lt, Decidable.not_not] at h
    exact ⟨fun _ => h, fun _ => rfl⟩

theorem built4_authenticator (E : Env) (our their : UInt32) (flags : UInt8) (content rv : Bytes) {d : DoubleRatchet} {k : RatchetKeys}
    (hk : d.sender.keys E = .ok k) : (built4 E our their flags content rv d k).authenticator = authenticator4 E our their flags content d := by
  obtain ⟨_, h1, h2⟩ := Ratchet.keys_ok hk
  unfold built4 authenticator4
  rw [h2, h1]
  rfl

/-- Sending succeeds, but for the causes listed. -/
theorem encrypt4_safe {E : Env} (hc : GoodCurve E.curve) {d : DoubleRatchet} (I : Weak4 E d)
    {rv : Bytes} (h64 : rv.length % 64 = 0) (hrv : d.next = .sender → rv ++ d.reveals ≠ []) {r : Rand}
    (our their : UInt32) (flags : UInt8) (content : Bytes)
    (now : Nat) (hn : ¬ Stuck4 E our their flags content r now d) : ∃ m d', encrypt4 E our their flags content rv r now d = .ok (m, d') := by
  have hj : d.next = .receiver → d.sender.id.toNat < 4294967295 := fun h => by
    have := d.sender.id.toNat_lt
    have : d.sender.id.toNat ≠ 2 ^ 32 - 1 := fun e => hn (.ids h e)
    omega
  -- the ratchet after the rotation
  have key : ∃ rv' d1, ratchetForSend E d rv r now = .ok (rv', d1) ∧ SendsWith E r now d d1 ∧ d1.next = .receiver ∧
      d1.sender.id.toNat < 4294967295 ∧ rv'.length % 64 = 0 ∧
      (0 < (predSat d1.i).toNat → d1.sender.id.toNat = 0 → rv' ≠ []) := by
    unfold ratchetForSend
    have hcase : d.next = .sender ∨ d.next = .receiver := by cases d.next <;> simp
    rcases hcase with hs | hs
    · have hi : d.i.toNat < 4294967295 := by
        have := d.i.toNat_lt
        have : d.i.toNat ≠ 2 ^ 32 - 1 := fun e => hn (.ratchets hs e)
        omega
      have hb : (d.i % 3 == 0) = false → anyNonzero d.shared.brace = true := fun h => by
        by_contra hz
        exact hn (.brace hs (by simpa using h) fun hx => hz (anyNonzero_iff.mpr hx))
      obtain ⟨s, hx⟩ := next_total' hc I.peer I.peerDh (ECDHKeyPair.generate E (r.bytes [1] 57))
        (if (d.i % 3 == 0) = true then DH.Keypair.generate3 E.dh3 (r.bytes [0] 80) else d.shared.dh) (d.i % 3 == 0) hb
      have hrot : ({ d with reveals := [] } : DoubleRatchet).rotateSender E r now = .ok { d with
          reveals := []
          created := now
          shared := s
          root := kdf2 E 64 0x12 d.root s.k
          sender := ⟨kdf2 E 64 0x13 d.root s.k, 0⟩
          next := .receiver
          i := d.i + 1
          pn := d.sender.id } := by
        unfold DoubleRatchet.rotateSender Mixed.rotateKeypairs
        simp only [hs, decide_true, Res.assert, if_true, Res.bind_ok, hx, Res.expect, (incId_of_lt hi).1]
        rfl
      rw [if_pos hs, hrot]
      refine ⟨_, _, rfl, .inr ⟨hs, hrot⟩, rfl, by show (0 : UInt32).toNat < _; decide, ?_, fun _ _ => hrv hs⟩
      have := I.rev
      rw [List.length_append]
      omega
    · refine ⟨rv, d, if_neg (by rw [hs]; simp), .inl ⟨hs, rfl⟩, hs, hj hs, h64, ?_⟩
      intro h1 h2
      rw [predSat_toNat] at h1
      exact absurd h2 (I.first hs (by omega))
  obtain ⟨rv', d1, h1, hw, h2, h4, h7, h8⟩ := key
  have h5 : Point.verify E.curve d1.shared.ecdh.pub = .ok () := by
    by_contra hx
    exact hn (.keys hw (.inl fun h => hx (verify_iff448.mpr h)))
  have h6 : predSat d1.i % 3 = 0 → DH.verify3 E.dh3 d1.shared.dh.pub = .ok () := by
    intro h3
    by_contra hx
    exact hn (.keys hw (.inr ⟨h3, fun h => hx (verify3_iff3072.mpr h)⟩))
  have hk : ∃ k, d1.sender.keys E = .ok k := ⟨_, if_pos (anyNonzero_iff.mpr (by_contra fun hx => hn (.chain hw hx)))⟩
  obtain ⟨k, hk⟩ := hk
  have e6 : anyNonzero (built4 E our their flags content rv' d1 k).authenticator = true := by
    rw [built4_authenticator E our their flags content rv' hk]
    exact anyNonzero_iff.mpr (by_contra fun hx => hn (.authenticator hw hx))
  have hval : (built4 E our their flags content rv' d1 k).validate E = .ok () := by
    unfold DataMessage4.validate
    have e1 : (built4 E our their flags content rv' d1 k).i = predSat d1.i := rfl
    have e2 : (built4 E our their flags content rv' d1 k).dh = if predSat d1.i % 3 = 0 then some d1.shared.dh.pub else .none := rfl
    have e3 : (built4 E our their flags content rv' d1 k).ecdh = d1.shared.ecdh.pub := rfl
    have e4 : (built4 E our their flags content rv' d1 k).revealed = rv' := rfl
    have e5 : (built4 E our their flags content rv' d1 k).j = d1.sender.id := rfl
    have c1 : ¬ (predSat d1.i > 0 ∧ d1.sender.id = 0 ∧ rv'.length / 64 = 0) := by
      rintro ⟨a, b, c⟩
      rw [gt_iff_lt, UInt32.lt_iff_toNat_lt] at a
      apply h8 a (by rw [b]; rfl)
      apply List.eq_nil_of_length_eq_zero
      omega
    rw [e1, e2, e3, e4, e5]
    by_cases h9 : predSat d1.i % 3 = 0
    · simp only [h9, if_true, Option.isSome_some, h6 h9, h5, Res.bind_ok, h7, ne_eq, not_true_eq_false, if_false, if_neg c1,
        e6]
      rfl
    · have h9' : (predSat d1.i % 3 == 0) = false := by simpa using h9
      simp only [h9, h9', if_false, Option.isSome_none, h5, Res.bind_ok, h7, ne_eq, not_true_eq_false, if_neg c1, e6]
      rfl
  refine ⟨built4 E our their flags content rv' d1 k,
    { d1 with sender := ⟨kdf E 64 0x14 d1.sender.chain, d1.sender.id + 1⟩ }, ?_⟩
  unfold encrypt4
  rw [h1, Res.bind_ok]
  simp only
  rw [hk, Res.bind_ok]
  have : Res.assert ((built4 E our their flags content rv' d1 k).validate E).isOk = .ok () := by rw [hval]; rfl
  unfold built4 at this
  rw [this, Res.bind_ok]
  unfold DoubleRatchet.rotateSenderChain
  simp only [h2, decide_true, Res.assert, if_true, Res.bind_ok, Ratchet.rotate_of_lt h4]
  rfl

theorem _root_.Otrr.Spec.Stuck4.reveals {E : Env} {our their : UInt32} {flags : UInt8} {content : Bytes} {r : Rand} {now : Nat}
    {d : DoubleRatchet} (h : Stuck4 E our their flags content r now d) (x : Bytes) :
    Stuck4 E our their flags content r now { d with reveals := x } := by
  have hw : ∀ {d1}, SendsWith E r now d d1 → ∃ y, SendsWith E r now { d with reveals := x } { d1 with reveals := y } := by
    rintro d1 (⟨h1, rfl⟩ | ⟨h1, h2⟩)
    · exact ⟨x, .inl ⟨h1, rfl⟩⟩
    · exact ⟨d1.reveals, .inr ⟨h1, h2⟩⟩
  cases h with
  | ratchets h1 h2 => exact .ratchets h1 h2
  | brace h1 h2 h3 => exact .brace h1 h2 h3
  | ids h1 h2 => exact .ids h1 h2
  | keys h1 h2 => obtain ⟨y, h1⟩ := hw h1; exact .keys h1 h2
  | chain h1 h2 => obtain ⟨y, h1⟩ := hw h1; exact .chain h1 h2
  | authenticator h1 h2 => obtain ⟨y, h1⟩ := hw h1; exact .authenticator h1 h2

/-- For each of the causes sending does not succeed. -/
theorem encrypt4_stuck {E : Env} {d : DoubleRatchet} {rv : Bytes} {r : Rand} {our their : UInt32} {flags : UInt8} {content : Bytes}
    {now : Nat} {m : DataMessage4} {d' : DoubleRatchet} (hs : Stuck4 E our their flags content r now d)
    (h : encrypt4 E our their flags content rv r now d = .ok (m, d')) : False := by
  obtain ⟨rv', d1, k, h1, h2, h3, h4, h5⟩ := encrypt4_ok h
  obtain ⟨_, _, _, _, h10⟩ := DoubleRatchet.rotateSenderChain_ok h5
  have h6 := ratchetForSend_ok h1
  have uniq : ∀ {x}, SendsWith E r now d x → x = d1 := by
    rintro x (⟨e1, e2⟩ | ⟨e1, e2⟩)
    · rcases h6 with ⟨e3, _⟩ | ⟨_, _, e4⟩
      · rw [e1] at e3; cases e3
      · rw [e2, e4]
    · rcases h6 with ⟨_, _, e4⟩ | ⟨e3, _⟩
      · exact Res.ok.inj (e2.symm.trans e4)
      · rw [e1] at e3; cases e3
  obtain ⟨v1, v2, v3, _, _, v4⟩ := validate_ok h4
  cases hs with
  | ratchets e1 e2 =>
    rcases h6 with ⟨_, _, e4⟩ | ⟨e3, _⟩
    · obtain ⟨_, _, _, _, _, _, e5, _⟩ := DoubleRatchet.rotateSender_ok e4
      have := d1.i.toNat_lt
      simp only at e5
      omega
    · rw [e1] at e3; cases e3
  | brace e1 e2 e3 =>
    rcases h6 with ⟨_, _, e4⟩ | ⟨e3, _⟩
    · obtain ⟨_, ⟨dh, e5, _⟩, _⟩ := DoubleRatchet.rotateSender_ok e4
      obtain ⟨_, _, _, e6, _⟩ := Mixed.next_ok e5
      rcases Mixed.nextBrace_ok e6 with ⟨e7, _⟩ | ⟨_, e7, _⟩
      · exact e2 (by simpa using e7)
      · exact e3 (anyNonzero_iff.mp e7)
    · rw [e1] at e3; cases e3
  | ids e1 e2 =>
    have := uniq (.inl ⟨e1, rfl⟩)
    subst this
    omega
  | keys e1 e2 =>
    have := uniq e1
    subst this
    rw [h3] at v2 v3
    rcases e2 with e2 | ⟨e2, e3⟩
    · exact e2 (verify_iff448.mp v3)
    · exact e3 (verify3_iff3072.mp (v2 _ (if_pos e2)))
  | chain e1 e2 =>
    have := uniq e1
    subst this
    exact e2 (anyNonzero_iff.mp (Ratchet.keys_ok h2).1)
  | authenticator e1 e2 =>
    have := uniq e1
    subst this
    rw [← built4_authenticator E our their flags content rv' h2, ← h3] at e2
    exact e2 (anyNonzero_iff.mp v4)

theorem encrypt4_ne_err {E : Env} {our their : UInt32} {flags : UInt8} {content rv : Bytes} {r : Rand} {now : Nat} {d : DoubleRatchet}
    (e : OTRError) : encrypt4 E our their flags content rv r now d ≠ .err e := by
  intro h
  have hbind : ∀ {α β} {x : Res α} {f : α → Res β} {e}, x >>= f = .err e → x = .err e ∨ ∃ a, x = .ok a ∧ f a = .err e := by
    intro α β x f e h
    cases x with
    | ok a => exact .inr ⟨a, rfl, h⟩
    | err e' => exact .inl (by cases h; rfl)
    | panic => cases h
  have hinc : ∀ {x e}, incId x ≠ .err e := by intro x e; unfold incId; split <;> nofun
  have hass : ∀ {b e}, Res.assert b ≠ .err e := by intro b e; cases b <;> nofun
  have hexp : ∀ {α} {x : Res α} {e}, x.expect ≠ .err e := by intro α x e; cases x <;> nofun
  unfold encrypt4 at h
  rcases hbind h with h | ⟨⟨rv', d1⟩, _, h⟩
  · unfold ratchetForSend at h
    split at h
    · rcases hbind h with h | ⟨d', _, h⟩
      · unfold DoubleRatchet.rotateSender at h
        rcases hbind h with h | ⟨_, _, h⟩
        · exact hass h
        · rcases hbind h with h | ⟨_, _, h⟩
          · exact hexp h
          · rcases hbind h with h | ⟨_, _, h⟩
            · exact hinc h
            · cases h
      · cases h
    · cases h
  · rcases hbind h with h | ⟨k, _, h⟩
    · unfold Ratchet.keys at h
      split at h <;> cases h
    · rcases hbind h with h | ⟨_, _, h⟩
      · exact hass h
      · rcases hbind h with h | ⟨_, _, h⟩
        · unfold DoubleRatchet.rotateSenderChain at h
          rcases hbind h with h | ⟨_, _, h⟩
          · exact hass h
          · rcases hbind h with h | ⟨_, _, h⟩
            · unfold Ratchet.rotate at h
              rcases hbind h with h | ⟨_, _, h⟩
              · exact hinc h
              · cases h
            · cases h
        · cases h

end Otrr
