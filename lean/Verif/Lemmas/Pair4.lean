import Verif.Lemmas.Hist4
import Verif.Lemmas.Pair3
/-! # Two OTRv4 clients -/

namespace Otrr
open Spec

/-- The private keys belong to the public keys. -/
structure Own (E : Env) (d : DoubleRatchet) : Prop where
  ecdh : d.shared.ecdh.pub = Point.mul E.curve E.curve.G d.shared.ecdh.priv
  dh : d.shared.dh = DH.Keypair.new E.dh3 d.shared.dh.priv

/-- The chain `s` is at or ahead of the chain `r`. -/
def Aligned (E : Env) (s r : Ratchet) : Prop :=
  r.id.toNat ≤ s.id.toNat ∧ s.chain = chainFwd E (s.id.toNat - r.id.toNat) r.chain

theorem Aligned.refl (E : Env) (r : Ratchet) : Aligned E r r := ⟨Nat.le_refl _, by rw [Nat.sub_self]; rfl⟩

theorem Aligned.adv {E : Env} {s s' r : Ratchet} (h : Aligned E s r) (h1 : s'.chain = kdf E 64 0x14 s.chain)
    (h2 : s'.id.toNat = s.id.toNat + 1) : Aligned E s' r := by
  obtain ⟨a, b⟩ := h
  refine ⟨by omega, ?_⟩
  rw [h1, b, ← chainFwd_succ, h2, Nat.succ_sub a]

theorem Aligned.eat {E : Env} {s r : Ratchet} {n : Nat} {j : UInt32} (h : Aligned E s r) (hj : j.toNat = r.id.toNat + n)
    (hs : j.toNat ≤ s.id.toNat) : Aligned E s ⟨chainFwd E n r.chain, j⟩ := by
  obtain ⟨a, b⟩ := h
  refine ⟨hs, ?_⟩
  simp only
  rw [b, ← chainFwd_add]
  congr 1
  omega

/-- Both clients are in the same ratchet and it is the turn of `a` to rotate. -/
structure Mirror (E : Env) (a b : DoubleRatchet) : Prop where
  an : a.next = .sender
  bn : b.next = .receiver
  i : a.i = b.i
  pos : 1 ≤ a.i.toNat
  oa : Own E a
  ob : Own E b
  ae : a.shared.publicEcdh = b.shared.ecdh.pub
  ad : a.shared.publicDh = b.shared.dh.pub
  be : b.shared.publicEcdh = a.shared.ecdh.pub
  bd : b.shared.publicDh = a.shared.dh.pub
  bv : DH.verify3 E.dh3 b.shared.publicDh = .ok ()
  root : a.root = b.root
  brace : a.shared.brace = b.shared.brace
  ab : Aligned E a.sender b.receiver
  ba : Aligned E b.sender a.receiver

/-- As `Mirror`, also in the very first ratchet. -/
structure Mirror0 (E : Env) (a b : DoubleRatchet) : Prop where
  an : a.next = .sender
  bn : b.next = .receiver
  i : a.i = b.i
  oa : Own E a
  ob : Own E b
  ae : a.shared.publicEcdh = b.shared.ecdh.pub
  ad : a.shared.publicDh = b.shared.dh.pub
  be : b.shared.publicEcdh = a.shared.ecdh.pub
  bd : b.shared.publicDh = a.shared.dh.pub
  bv : DH.verify3 E.dh3 b.shared.publicDh = .ok ()
  root : a.root = b.root
  brace : a.shared.brace = b.shared.brace
  ba : Aligned E b.sender a.receiver

theorem Mirror.to0 {E : Env} {a b : DoubleRatchet} (h : Mirror E a b) : Mirror0 E a b :=
  ⟨h.an, h.bn, h.i, h.oa, h.ob, h.ae, h.ad, h.be, h.bd, h.bv, h.root, h.brace, h.ba⟩

/-- The chain key that starts the ratchet `a` after `b`. -/
def newChain (E : Env) (a b : DoubleRatchet) : Ratchet := ⟨kdf2 E 64 0x13 b.root a.shared.k, 0⟩

/-- `a` has rotated to a ratchet that `b` does not know yet. -/
structure Ahead (E : Env) (a b : DoubleRatchet) : Prop where
  an : a.next = .receiver
  bn : b.next = .receiver
  i : a.i.toNat = b.i.toNat + 1
  oa : Own E a
  ob : Own E b
  ae : a.shared.publicEcdh = b.shared.ecdh.pub
  ad : a.shared.publicDh = b.shared.dh.pub
  av : DH.verify3 E.dh3 a.shared.publicDh = .ok ()
  bv : DH.verify3 E.dh3 b.shared.publicDh = .ok ()
  dh : (b.i % 3 == 0) = true ↔ a.shared.dh.pub ≠ b.shared.publicDh
  nz : anyNonzero (a.shared.ecdh.sharedSecret E b.shared.ecdh.pub).encode = true
  brace : Mixed.nextBrace E a.shared.dh b.shared.dh.pub (b.i % 3 == 0) b.shared.brace = .ok a.shared.brace
  k : a.shared.k = kdf2 E 64 0x03 (a.shared.ecdh.sharedSecret E b.shared.ecdh.pub).encode a.shared.brace
  root : a.root = kdf2 E 64 0x12 b.root a.shared.k
  ab : Aligned E a.sender (newChain E a b)
  ba : Aligned E b.sender a.receiver
  z : b.i.toNat = 0 → b.receiver.id = 0

theorem Own.ecdh_comm {E : Env} (hc : GoodCurve E.curve) {a b : DoubleRatchet} (oa : Own E a) (ob : Own E b) :
    b.shared.ecdh.sharedSecret E a.shared.ecdh.pub = a.shared.ecdh.sharedSecret E b.shared.ecdh.pub := by
  have := Fact.mk hc.field.prime
  have := hc.field.good
  obtain ⟨A, hA⟩ := OnCurve.rep hc.base
  unfold ECDHKeyPair.sharedSecret
  rw [oa.ecdh, ob.ecdh]
  exact (((hA.mul _).mul _).eq_iff ((hA.mul _).mul _)).mpr (smul_comm ..)

theorem Own.dh_comm {E : Env} {a b : DoubleRatchet} (oa : Own E a) (ob : Own E b) :
    b.shared.dh.sharedSecret E.dh3 a.shared.dh.pub = a.shared.dh.sharedSecret E.dh3 b.shared.dh.pub := by
  rw [oa.dh, ob.dh]
  simp only [DH.Keypair.sharedSecret, DH.Keypair.new, DH.Keypair.newCustom, modpow]
  rw [← Nat.pow_mod, ← Nat.pow_mod, ← Nat.pow_mul, ← Nat.pow_mul, Nat.mul_comm]

theorem verify3_pos {G : DHGroup} (hG : GoodGroup G) {v : Nat} (h : DH.verify3 G v = .ok ()) : v ≠ 0 := by
  unfold DH.verify3 at h
  split at h
  · simp at h
  · rename_i hn
    simp only [not_or, Nat.not_lt] at hn
    obtain ⟨h1, h2⟩ := hG
    have : G.g ≠ 0 := by
      rintro h0
      rw [h0, Nat.gcd_zero_left] at h2
      omega
    omega

/-- Our rotation before sending makes us ahead. -/
theorem Mirror0.send {E : Env} {a b d : DoubleRatchet} (h : Mirror0 E a b) {r : Rand} {now : Nat} {rv : Bytes}
    (hr : ({ a with reveals := rv } : DoubleRatchet).rotateSender E r now = .ok d)
    (hf : a.i.toNat % 3 = 0 → d.shared.dh.pub ≠ a.shared.dh.pub)
    (hz : b.i.toNat = 0 → b.receiver.id = 0) : Ahead E d b := by
  obtain ⟨_, ⟨dh, h1, h2⟩, h3, h4, h5, h6, h7, _, _⟩ := DoubleRatchet.rotateSender_ok hr
  simp only at h1 h2 h3 h4 h5 h7
  obtain ⟨k1, k2, k3, k4, k5⟩ := Mixed.next_ok h1
  have e1 : d.shared.ecdh = ECDHKeyPair.generate E (r.bytes [1] 57) := by rw [k5]
  have e2 : d.shared.dh = dh := by rw [k5]
  have e3 : d.shared.publicEcdh = a.shared.publicEcdh := by rw [k5]
  have e4 : d.shared.publicDh = a.shared.publicDh := by rw [k5]
  have e5 : d.shared.k = kdf2 E 64 0x03 ((ECDHKeyPair.generate E (r.bytes [1] 57)).sharedSecret E a.shared.publicEcdh).encode
      d.shared.brace := by rw [k5]
  have hthird : (b.i % 3 == 0) = true ↔ a.i.toNat % 3 = 0 := by
    rw [← h.i, beq_iff_eq, ← UInt32.toNat_inj, UInt32.toNat_mod]
    rfl
  constructor
  · exact h6
  · exact h.bn
  · rw [h7, h.i]
  · constructor
    · rw [e1]; rfl
    · rw [e2, h2]
      split
      · rfl
      · exact h.oa.dh
  · exact h.ob
  · rw [e3, h.ae]
  · rw [e4, h.ad]
  · rw [e4]; exact k2
  · exact h.bv
  · rw [hthird]
    constructor
    · intro hz
      rw [h.bd]
      exact hf hz
    · intro hne
      by_contra hz
      apply hne
      rw [e2, h2, if_neg (by rw [h.i, hthird]; exact hz), h.bd]
  · rw [e1, ← h.ae]; exact k3
  · rw [e2, ← h.ad, ← h.i, ← h.brace]; exact k4
  · rw [e1, ← h.ae]; exact e5
  · rw [h3, h.root]
  · rw [h4, newChain, ← h.root]; exact Aligned.refl _ _
  · rw [h5]; exact h.ba
  · exact hz

/-- The other client learns of our rotation. -/
theorem Ahead.absorb {E : Env} (hc : GoodCurve E.curve) (hG : GoodGroup E.dh3) {a b : DoubleRatchet} (h : Ahead E a b)
    (now : Nat) (v1 : Point.verify E.curve a.shared.ecdh.pub = .ok ())
    (v2 : (b.i % 3 == 0) = true → DH.verify3 E.dh3 a.shared.dh.pub = .ok ()) :
    ∃ d, b.rotateReceiver E a.shared.ecdh.pub a.shared.dh.pub now = .ok d ∧ d.receiver = newChain E a b ∧
      d.i.toNat = b.i.toNat + 1 ∧ d.sender = b.sender ∧
      (∀ r rv, Aligned E a.sender r → Mirror E { d with receiver := r, reveals := rv } a) := by
  have v3 : DH.verify3 E.dh3 a.shared.dh.pub = .ok () := by
    by_cases ht : (b.i % 3 == 0) = true
    · exact v2 ht
    · have : a.shared.dh.pub = b.shared.publicDh := by
        by_contra hne
        exact ht (h.dh.mpr hne)
      rw [this]
      exact h.bv
  have hbrace : Mixed.nextBrace E b.shared.dh a.shared.dh.pub (b.i % 3 == 0) b.shared.brace = .ok a.shared.brace := by
    have := h.brace
    unfold Mixed.nextBrace at this ⊢
    rw [h.oa.dh_comm h.ob]
    exact this
  have hn := Mixed.next_of (E := E) (ecdh := b.shared.ecdh) v1 v3
    (by rw [h.oa.ecdh_comm hc h.ob]; exact h.nz) hbrace
  rw [h.oa.ecdh_comm hc h.ob, ← h.k] at hn
  have hi : b.i.toNat < 4294967295 := by
    have := h.i
    have := a.i.toNat_lt
    omega
  have hne : (a.shared.dh.pub != 0) = true := by
    rw [bne_iff_ne]
    exact verify3_pos hG v3
  have hth : ((b.i % 3 == 0) == (a.shared.dh.pub != b.shared.publicDh)) = true := by
    rw [beq_iff_eq, Bool.eq_iff_iff, h.dh, bne_iff_ne]
  have hai : b.i + 1 = a.i := UInt32.toNat_inj.mp (by rw [(incId_of_lt hi).2, h.i])
  refine ⟨⟨now, ⟨b.shared.ecdh, b.shared.dh, a.shared.ecdh.pub, a.shared.dh.pub, a.shared.brace, a.shared.k⟩,
    kdf2 E 64 0x12 b.root a.shared.k, b.sender, newChain E a b, .sender, b.i + 1, b.pn, b.reveals⟩, ?_, rfl,
    (incId_of_lt hi).2, rfl, ?_⟩
  · simp only [DoubleRatchet.rotateReceiver, Mixed.rotateOthers, h.bn, decide_true, hne, hth, hn,
      (incId_of_lt hi).1, Res.assert, if_true, Res.bind_ok, Res.pure_def, newChain]
  · intro r rv hal
    exact ⟨rfl, h.an, hai, by simp only [hai, h.i]; omega, ⟨h.ob.ecdh, h.ob.dh⟩, h.oa, rfl, rfl, h.ae, h.ad,
      h.av, h.root.symm, rfl, h.ba, hal⟩

/-! ## Messages under way -/

/-- The message was made with the keys of this chain key. -/
structure Sealed (E : Env) (our their : UInt32) (chain : Bytes) (x : DataMessage4 × Bytes) : Prop where
  ex : ∃ keys, (⟨chain, x.1.j⟩ : Ratchet).keys E = .ok keys ∧
    x.1.encrypted = chachaCrypt E (encKey keys.enc) x.2 ∧
    x.1.authenticator = kdf2 E 64 0x18 keys.mac (authenticatorData4 4 our their x.1)
  valid : x.1.validate E = .ok ()
  j : x.1.j.toNat < 4294967295

/-- A message under way from `a` to `b`: from an old ratchet, from the current one, or from one that `b`
does not know yet. -/
def Under (E : Env) (our their : UInt32) (a b : DoubleRatchet) (x : DataMessage4 × Bytes) : Prop :=
  x.1.i.toNat + 1 < b.i.toNat ∨
  (x.1.i.toNat + 1 = b.i.toNat ∧ b.receiver.id.toNat ≤ x.1.j.toNat ∧
    Sealed E our their (chainFwd E (x.1.j.toNat - b.receiver.id.toNat) b.receiver.chain) x) ∨
  (x.1.i = b.i ∧ a.i.toNat = b.i.toNat + 1 ∧ x.1.ecdh = a.shared.ecdh.pub ∧
    x.1.dh = (if b.i % 3 = 0 then some a.shared.dh.pub else .none) ∧
    Sealed E our their (chainFwd E x.1.j.toNat (newChain E a b).chain) x)

/-- Messages sent so far are below this id. -/
def sentPos (d : DoubleRatchet) : Nat × Nat :=
  (if d.next = .receiver then d.i.toNat - 1 else d.i.toNat - 2, d.sender.id.toNat)

/-- All messages under way from `a` to `b`. -/
structure Queue (E : Env) (our their : UInt32) (a b : DoubleRatchet) (q : List (DataMessage4 × Bytes)) : Prop where
  under : ∀ x ∈ q, Under E our their a b x
  inc : (q.map fun x => id4 x.1).Pairwise idLt
  lt : ∀ x ∈ q, idLt (id4 x.1) (sentPos a)

/-- The relation between the two clients. -/
def Rel (E : Env) (a b : DoubleRatchet) : Prop := Mirror E a b ∨ Mirror E b a ∨ Ahead E a b ∨ Ahead E b a

theorem Rel.symm {E : Env} {a b : DoubleRatchet} (h : Rel E a b) : Rel E b a := by
  unfold Rel at *
  tauto

theorem Mirror.sndA {E : Env} {a b : DoubleRatchet} (h : Mirror E a b) {s : Ratchet} (hs : Aligned E s b.receiver) :
    Mirror E { a with sender := s } b :=
  ⟨h.an, h.bn, h.i, h.pos, ⟨h.oa.ecdh, h.oa.dh⟩, h.ob, h.ae, h.ad, h.be, h.bd, h.bv, h.root, h.brace, hs, h.ba⟩

theorem Mirror.sndB {E : Env} {a b : DoubleRatchet} (h : Mirror E a b) {s : Ratchet} (hs : Aligned E s a.receiver) :
    Mirror E a { b with sender := s } :=
  ⟨h.an, h.bn, h.i, h.pos, h.oa, ⟨h.ob.ecdh, h.ob.dh⟩, h.ae, h.ad, h.be, h.bd, h.bv, h.root, h.brace, h.ab, hs⟩

theorem Mirror.rcvA {E : Env} {a b : DoubleRatchet} (h : Mirror E a b) {r : Ratchet} (rv : Bytes)
    (hs : Aligned E b.sender r) : Mirror E { a with reveals := rv, receiver := r } b :=
  ⟨h.an, h.bn, h.i, h.pos, ⟨h.oa.ecdh, h.oa.dh⟩, h.ob, h.ae, h.ad, h.be, h.bd, h.bv, h.root, h.brace, h.ab, hs⟩

theorem Mirror.rcvB {E : Env} {a b : DoubleRatchet} (h : Mirror E a b) {r : Ratchet} (rv : Bytes)
    (hs : Aligned E a.sender r) : Mirror E a { b with reveals := rv, receiver := r } :=
  ⟨h.an, h.bn, h.i, h.pos, h.oa, ⟨h.ob.ecdh, h.ob.dh⟩, h.ae, h.ad, h.be, h.bd, h.bv, h.root, h.brace, hs, h.ba⟩

theorem Ahead.sndA {E : Env} {a b : DoubleRatchet} (h : Ahead E a b) {s : Ratchet} (hs : Aligned E s (newChain E a b)) :
    Ahead E { a with sender := s } b :=
  ⟨h.an, h.bn, h.i, ⟨h.oa.ecdh, h.oa.dh⟩, h.ob, h.ae, h.ad, h.av, h.bv, h.dh, h.nz, h.brace, h.k, h.root, hs, h.ba, h.z⟩

theorem Ahead.sndB {E : Env} {a b : DoubleRatchet} (h : Ahead E a b) {s : Ratchet} (hs : Aligned E s a.receiver) :
    Ahead E a { b with sender := s } :=
  ⟨h.an, h.bn, h.i, h.oa, ⟨h.ob.ecdh, h.ob.dh⟩, h.ae, h.ad, h.av, h.bv, h.dh, h.nz, h.brace, h.k, h.root, h.ab, hs, h.z⟩

theorem Ahead.rcvA {E : Env} {a b : DoubleRatchet} (h : Ahead E a b) {r : Ratchet} (rv : Bytes)
    (hs : Aligned E b.sender r) : Ahead E { a with reveals := rv, receiver := r } b :=
  ⟨h.an, h.bn, h.i, ⟨h.oa.ecdh, h.oa.dh⟩, h.ob, h.ae, h.ad, h.av, h.bv, h.dh, h.nz, h.brace, h.k, h.root, h.ab, hs, h.z⟩

theorem Ahead.rcvB {E : Env} {a b : DoubleRatchet} (h : Ahead E a b) {r : Ratchet} (rv : Bytes)
    (hz : b.i.toNat ≠ 0) : Ahead E a { b with reveals := rv, receiver := r } :=
  ⟨h.an, h.bn, h.i, h.oa, ⟨h.ob.ecdh, h.ob.dh⟩, h.ae, h.ad, h.av, h.bv, h.dh, h.nz, h.brace, h.k, h.root, h.ab, h.ba,
    fun h0 => absurd h0 hz⟩

theorem mod3 (i : UInt32) : (i % 3 = 0) ↔ (i % 3 == 0) = true := by rw [beq_iff_eq]

/-- The message that was built. -/
theorem built4_sealed {E : Env} {our their : UInt32} {flags : UInt8} {content rv : Bytes} {d : DoubleRatchet}
    {keys : RatchetKeys} (hk : d.sender.keys E = .ok keys)
    (hv : (built4 E our their flags content rv d keys).validate E = .ok ()) (hj : d.sender.id.toNat < 4294967295) :
    Sealed E our their d.sender.chain (built4 E our their flags content rv d keys, content) := by
  refine ⟨⟨keys, ?_, rfl, ?_⟩, hv, hj⟩
  · exact hk
  · simp only [built4, authenticatorData4]

theorem Queue.snoc {E : Env} {our their : UInt32} {a b : DoubleRatchet} {q : List (DataMessage4 × Bytes)}
    {x : DataMessage4 × Bytes} (h1 : ∀ y ∈ q, Under E our their a b y) (h2 : Under E our their a b x)
    (h3 : (q.map fun x => id4 x.1).Pairwise idLt) (h4 : ∀ y ∈ q, idLt (id4 y.1) (id4 x.1))
    (h5 : idLt (id4 x.1) (sentPos a)) : Queue E our their a b (q ++ [x]) := by
  constructor
  · intro y hy
    rw [List.mem_append, List.mem_singleton] at hy
    rcases hy with hy | rfl
    · exact h1 y hy
    · exact h2
  · rw [List.map_append]
    refine pairwise_snoc h3 ?_
    intro y hy
    simp only [List.mem_map] at hy
    obtain ⟨z, hz, rfl⟩ := hy
    exact h4 z hz
  · intro y hy
    rw [List.mem_append, List.mem_singleton] at hy
    rcases hy with hy | rfl
    · exact idLt_trans (h4 y hy) h5
    · exact h5

/-- Everything that holds between two clients. -/
structure PInv (E : Env) (oa ob : UInt32) (a b : DoubleRatchet) (ab ba : List (DataMessage4 × Bytes)) : Prop where
  rel : Rel E a b
  qa : Queue E oa ob a b ab
  qb : Queue E ob oa b a ba

/-- The MAC keys to reveal do not matter. -/
theorem PInv.forget {E : Env} {oa ob : UInt32} {a b : DoubleRatchet} {ab ba : List (DataMessage4 × Bytes)}
    (h : PInv E oa ob a b ab ba) (rv : Bytes) : PInv E oa ob { a with reveals := rv } b ab ba := by
  refine ⟨?_, ⟨h.qa.under, h.qa.inc, h.qa.lt⟩, ⟨h.qb.under, h.qb.inc, h.qb.lt⟩⟩
  rcases h.rel with hM | hM | hA | hA
  · exact .inl (hM.rcvA rv hM.ba)
  · exact .inr (.inl (hM.rcvB rv hM.ab))
  · exact .inr (.inr (.inl (hA.rcvA rv hA.ba)))
  · refine .inr (.inr (.inr ?_))
    exact ⟨hA.an, hA.bn, hA.i, hA.oa, ⟨hA.ob.ecdh, hA.ob.dh⟩, hA.ae, hA.ad, hA.av, hA.bv, hA.dh, hA.nz, hA.brace, hA.k, hA.root,
      hA.ab, hA.ba, hA.z⟩

theorem PInv.symm {E : Env} {oa ob : UInt32} {a b : DoubleRatchet} {ab ba : List (DataMessage4 × Bytes)}
    (h : PInv E oa ob a b ab ba) : PInv E ob oa b a ba ab := ⟨h.rel.symm, h.qb, h.qa⟩

/-- Sending preserves the relation. -/
theorem PInv.send {E : Env} {oa ob : UInt32} {a b a' : DoubleRatchet} {ab ba : List (DataMessage4 × Bytes)}
    (h : PInv E oa ob a b ab ba) {flags : UInt8} {plain reveals : Bytes} {r : Rand} {now : Nat} {m : DataMessage4}
    (he : encrypt4 E oa ob flags plain reveals r now a = .ok (m, a')) (hf : FreshKey a a') :
    PInv E oa ob a' b (ab ++ [(m, plain)]) ba := by
  obtain ⟨rv, d1, keys, h1, h2, h3, h4, h5⟩ := encrypt4_ok he
  obtain ⟨h6, h7, h8, h9, h10⟩ := DoubleRatchet.rotateSenderChain_ok h5
  have hseal := built4_sealed (our := oa) (their := ob) (flags := flags) (content := plain) (rv := rv) h2 (h3 ▸ h4) h10
  rw [← h3] at hseal
  have m1 : m.i.toNat = d1.i.toNat - 1 := by rw [h3]; exact predSat_toNat _
  have m2 : m.j = d1.sender.id := by rw [h3]; rfl
  have m3 : m.ecdh = d1.shared.ecdh.pub := by rw [h3]; rfl
  have m4 : m.dh = if m.i % 3 = 0 then some d1.shared.dh.pub else .none := by rw [h3]; rfl
  have e1 : a'.i = d1.i := by rw [h7]
  have e2 : a'.next = .receiver := by rw [h7]; exact h6
  have e3 : a'.shared = d1.shared := by rw [h7]
  have e4 : a'.receiver = d1.receiver := by rw [h7]
  have e5 : a'.root = d1.root := by rw [h7]
  have hpos : idLt (id4 m) (sentPos a') := by
    simp only [idLt, id4, sentPos, e2, if_true, m1, m2, e1, h9]
    exact .inr ⟨trivial, by omega⟩
  -- the message is new for the other client if we are ahead
  have hnew : Ahead E d1 b → Ahead E a' b ∧ Under E oa ob a' b (m, plain) := by
    intro A
    have A' : Ahead E a' b := by rw [h7]; exact A.sndA (A.ab.adv h8 h9)
    refine ⟨A', .inr (.inr ?_)⟩
    have hmi : m.i = b.i := UInt32.toNat_inj.mp (by rw [m1, A.i]; omega)
    refine ⟨hmi, by rw [e1]; exact A.i, by simp only; rw [m3, e3], by simp only; rw [m4, hmi, e3], ?_⟩
    have hal := A.ab.2
    have hid : (newChain E d1 b).id.toNat = 0 := rfl
    rw [hid, Nat.sub_zero] at hal
    have hnc : newChain E a' b = newChain E d1 b := by unfold newChain; rw [e3]
    rw [hnc]
    simp only
    rw [m2, ← hal]
    exact hseal
  rcases ratchetForSend_ok h1 with ⟨n1, n2, n3⟩ | ⟨n1, n2, n3⟩
  · -- we rotate first
    have hM : Mirror E a b := by
      rcases h.rel with hM | hM | hA | hA
      · exact hM
      · rw [hM.bn] at n1; cases n1
      · rw [hA.an] at n1; cases n1
      · rw [hA.bn] at n1; cases n1
    have hA := hM.to0.send n3 (by intro hz; have := hf n1 hz; rwa [e3] at this)
      (by have := hM.pos; rw [hM.i] at this; omega)
    obtain ⟨A', hu⟩ := hnew hA
    have hi1 : d1.i.toNat = a.i.toNat + 1 := by
      have := hA.i
      rw [← hM.i] at this
      exact this
    refine ⟨.inr (.inr (.inl A')), Queue.snoc ?_ hu h.qa.inc ?_ hpos, ?_⟩
    · intro y hy
      rcases h.qa.under y hy with hy | hy | ⟨_, hy, _⟩
      · exact .inl hy
      · exact .inr (.inl hy)
      · rw [hM.i] at hy; omega
    · intro y hy
      have := h.qa.lt y hy
      simp only [idLt, id4, sentPos, n1, reduceCtorEq, if_false, m1, hi1] at this ⊢
      have := hM.pos
      omega
    · refine ⟨?_, h.qb.inc, h.qb.lt⟩
      intro y hy
      left
      rw [e1, hi1]
      rcases h.qb.under y hy with hy | ⟨hy, _⟩ | ⟨_, hy, _⟩
      · omega
      · omega
      · rw [hM.i] at hy; omega
  · -- no rotation
    subst n3
    have hq : ∀ y ∈ ab, Under E oa ob a' b y := by
      intro y hy
      have := h.qa.under y hy
      unfold Under newChain at this ⊢
      rw [e1, e3]
      exact this
    have hlt : ∀ y ∈ ab, idLt (id4 y.1) (id4 m) := by
      intro y hy
      have := h.qa.lt y hy
      simp only [idLt, id4, sentPos, n1, if_true, m1, m2] at this ⊢
      exact this
    have hqb : Queue E ob oa b a' ba := by
      refine ⟨?_, h.qb.inc, h.qb.lt⟩
      intro y hy
      have := h.qb.under y hy
      unfold Under newChain at this ⊢
      rw [e1, e4, e5]
      exact this
    rcases h.rel with hM | hM | hA | hA
    · rw [hM.an] at n1; cases n1
    · refine ⟨.inr (.inl ?_), Queue.snoc hq ?_ h.qa.inc hlt hpos, hqb⟩
      · rw [h7]; exact hM.sndB (hM.ba.adv h8 h9)
      · right; left
        have := hM.pos
        refine ⟨by simp only [m1]; rw [hM.i] at this ⊢; omega, by simp only [m2]; exact hM.ba.1, ?_⟩
        simp only
        rw [m2, ← hM.ba.2]
        exact hseal
    · obtain ⟨A', hu⟩ := hnew hA
      exact ⟨.inr (.inr (.inl A')), Queue.snoc hq hu h.qa.inc hlt hpos, hqb⟩
    · refine ⟨.inr (.inr (.inr ?_)), Queue.snoc hq ?_ h.qa.inc hlt hpos, hqb⟩
      · rw [h7]; exact hA.sndB (hA.ba.adv h8 h9)
      · have hi := hA.i
        by_cases h0 : d1.i.toNat = 0
        · right; left
          refine ⟨by simp only [m1]; omega, by simp only [m2]; exact hA.ba.1, ?_⟩
          simp only
          rw [m2, ← hA.ba.2]
          exact hseal
        · left
          simp only [m1]
          omega

/-- A valid message. -/
theorem validate_ok {E : Env} {m : DataMessage4} (h : m.validate E = .ok ()) :
    (m.i % 3 == 0) = m.dh.isSome ∧ (∀ v, m.dh = some v → DH.verify3 E.dh3 v = .ok ()) ∧
      Point.verify E.curve m.ecdh = .ok () ∧ m.revealed.length % 64 = 0 ∧
      ¬ (m.i > 0 ∧ m.j = 0 ∧ m.revealed.length / 64 = 0) ∧ anyNonzero m.authenticator = true := by
  unfold DataMessage4.validate at h
  split at h
  · simp at h
  · rename_i h0
    have h' : (∀ v, m.dh = some v → DH.verify3 E.dh3 v = .ok ()) ∧ Point.verify E.curve m.ecdh = .ok () ∧
        (if m.revealed.length % 64 ≠ 0 then .err .protocolViolation
          else if m.i > 0 ∧ m.j = 0 ∧ m.revealed.length / 64 = 0 then .err .protocolViolation
          else Res.assert (anyNonzero m.authenticator)) = .ok () := by
      cases hd : m.dh with
      | none =>
        simp only [hd, Res.bind_eq_ok] at h
        obtain ⟨_, _, _, h2, h3⟩ := h
        exact ⟨by simp, h2, h3⟩
      | some w =>
        simp only [hd, Res.bind_eq_ok] at h
        obtain ⟨_, h1, _, h2, h3⟩ := h
        exact ⟨by rintro v hv; rw [← Option.some.inj hv]; exact h1, h2, h3⟩
    obtain ⟨h1, h2, h3⟩ := h'
    split at h3
    · simp at h3
    · rename_i h4
      split at h3
      · simp at h3
      · rename_i h5
        exact ⟨by simpa using h0, h1, h2, by simpa using h4, h5, Res.assert_eq_ok.mp h3⟩

/-- Decrypting on a known receiver chain. -/
theorem decrypt4_of {E : Env} {our their : UInt32} {x : DataMessage4 × Bytes} {now : Nat} {d s : DoubleRatchet}
    (hs : speculate4 E x.1 now d = .ok s) (hle : s.receiver.id.toNat ≤ x.1.j.toNat)
    (hx : Sealed E our their (chainFwd E (x.1.j.toNat - s.receiver.id.toNat) s.receiver.chain) x) :
    ∃ rv, decrypt4 E x.1 (authenticatorData4 4 our their x.1) now d = .ok (x.2,
      { s with reveals := rv
               receiver := ⟨chainFwd E (x.1.j.toNat - s.receiver.id.toNat + 1) s.receiver.chain, x.1.j + 1⟩ }) := by
  obtain ⟨keys, k1, k2, k3⟩ := hx.ex
  obtain ⟨_, _, _, _, _, hnz⟩ := validate_ok hx.valid
  refine ⟨s.reveals ++ keys.mac, ?_⟩
  have hc : compareBytes (kdf2 E 64 0x18 keys.mac (authenticatorData4 4 our their x.1)) x.1.authenticator = .ok () :=
    compareBytes_ok_iff.mpr ⟨k3.symm, k3 ▸ hnz⟩
  have hr := Ratchet.rotate_of_lt (E := E) (r := ⟨chainFwd E (x.1.j.toNat - s.receiver.id.toNat) s.receiver.chain, x.1.j⟩) hx.j
  have hdec : chachaCrypt E (encKey keys.enc) x.1.encrypted = x.2 := by
    rw [k2]
    exact xorStream_twice _ _
  simp only [decrypt4, hs, Res.bind_ok, Ratchet.forward_to E s.receiver x.1.j hle, k1, hc,
    DoubleRatchet.confirmReceiver, hr, Res.pure_def, hdec, chainFwd_succ]

/-- The receiver's side of one delivery. -/
theorem PInv.recv {E : Env} (hc : GoodCurve E.curve) (hG : GoodGroup E.dh3) {oa ob : UInt32} {a b : DoubleRatchet}
    {x : DataMessage4 × Bytes} {ab ba : List (DataMessage4 × Bytes)} (h : PInv E oa ob a b (x :: ab) ba) (now : Nat) :
    (x.1.i.toNat + 1 < b.i.toNat ∧
      decrypt4 E x.1 (authenticatorData4 4 oa ob x.1) now b = .err .userError ∧ PInv E oa ob a b ab ba) ∨
    (b.i.toNat ≤ x.1.i.toNat + 1 ∧ ∃ b', decrypt4 E x.1 (authenticatorData4 4 oa ob x.1) now b = .ok (x.2, b') ∧
      PInv E oa ob a b' ab ba ∧ (b'.i = b.i ∨ (x.1.i = b.i ∧ Mirror E b' a))) := by
  have hq : Queue E oa ob a b ab :=
    ⟨fun y hy => h.qa.under y (List.mem_cons_of_mem _ hy), (List.pairwise_cons.mp h.qa.inc).2,
      fun y hy => h.qa.lt y (List.mem_cons_of_mem _ hy)⟩
  have hafter : ∀ y ∈ ab, idLt (id4 x.1) (id4 y.1) := by
    intro y hy
    exact (List.pairwise_cons.mp h.qa.inc).1 _ (List.mem_map_of_mem hy)
  have hxlt := h.qa.lt x List.mem_cons_self
  rcases h.qa.under x List.mem_cons_self with hx | ⟨hx, hle, hs⟩ | ⟨hx, hi, he, hd, hs⟩
  · left
    refine ⟨hx, ?_, h.rel, hq, h.qb⟩
    have hsp : speculate4 E x.1 now b = .err .userError := by
      unfold speculate4
      rw [if_neg, if_pos]
      · left
        rw [UInt32.lt_iff_toNat_lt, predSat_toNat]
        omega
      · rw [gt_iff_lt, UInt32.lt_iff_toNat_lt]
        omega
    rw [decrypt4, hsp]
    rfl
  · right
    refine ⟨by omega, ?_⟩
    have hsp : speculate4 E x.1 now b = .ok b := by
      unfold speculate4
      rw [if_neg, if_neg, if_neg]
      · intro h0; rw [h0] at hx; omega
      · rw [UInt32.lt_iff_toNat_lt, UInt32.lt_iff_toNat_lt, predSat_toNat]
        omega
      · rw [gt_iff_lt, UInt32.lt_iff_toNat_lt]
        omega
    obtain ⟨rv, hdec⟩ := decrypt4_of hsp hle hs
    refine ⟨_, hdec, ?_, .inl rfl⟩
    have hj1 := (incId_of_lt hs.j).2
    have heat : Aligned E a.sender b.receiver → x.1.j.toNat < a.sender.id.toNat →
        Aligned E a.sender ⟨chainFwd E (x.1.j.toNat - b.receiver.id.toNat + 1) b.receiver.chain, x.1.j + 1⟩ := by
      intro hal hlt
      exact hal.eat (by omega) (by omega)
    refine ⟨?_, ⟨?_, hq.inc, hq.lt⟩, ⟨?_, h.qb.inc, h.qb.lt⟩⟩
    · rcases h.rel with hM | hM | hA | hA
      · refine .inl (hM.rcvB _ (heat hM.ab ?_))
        simp only [idLt, id4, sentPos, hM.an, reduceCtorEq, if_false] at hxlt
        have := hM.i
        rw [← this] at hx
        omega
      · refine .inr (.inl (hM.rcvA _ (heat hM.ba ?_)))
        simp only [idLt, id4, sentPos, hM.bn, if_true] at hxlt
        have := hM.i
        rw [this] at hx
        omega
      · exact .inr (.inr (.inl (hA.rcvB _ (by omega))))
      · refine .inr (.inr (.inr (hA.rcvA _ (heat hA.ba ?_))))
        simp only [idLt, id4, sentPos, hA.bn, if_true] at hxlt
        have := hA.i
        omega
    · intro y hy
      rcases hq.under y hy with hy' | ⟨hy1, hy2, hy3⟩ | hy'
      · exact .inl hy'
      · have := hafter y hy
        simp only [idLt, id4] at this
        refine .inr (.inl ⟨hy1, by simp only [hj1]; omega, ?_⟩)
        simp only [hj1]
        rw [← chainFwd_add]
        have e : x.1.j.toNat - b.receiver.id.toNat + 1 + (y.1.j.toNat - (x.1.j.toNat + 1)) =
          y.1.j.toNat - b.receiver.id.toNat := by omega
        rw [e]
        exact hy3
      · exact .inr (.inr hy')
    · intro y hy
      exact h.qb.under y hy
  · right
    refine ⟨by rw [hx]; omega, ?_⟩
    have hA : Ahead E a b := by
      rcases h.rel with hM | hM | hA | hA
      · rw [hM.i] at hi; omega
      · rw [hM.i] at hi; omega
      · exact hA
      · have := hA.i; omega
    obtain ⟨v1, v2, v3, _, _, _⟩ := validate_ok hs.valid
    obtain ⟨d, d1, d2, d3, d4, d5⟩ := hA.absorb hc hG now (he ▸ v3) (by
      intro ht
      exact v2 _ (by rw [hd, if_pos ((mod3 _).mpr ht)]))
    have hsp : speculate4 E x.1 now b = .ok d := by
      unfold speculate4
      rw [if_neg, if_neg, if_pos hx, if_neg]
      · rw [v1, beq_self_eq_true]
        simp only [Res.assert, if_true, Res.bind_ok]
        have hg : x.1.dh.getD b.shared.publicDh = a.shared.dh.pub := by
          rw [hd]
          split
          · rfl
          · rename_i hn
            simp only [Option.getD_none]
            by_contra hne
            exact hn ((mod3 _).mpr (hA.dh.mpr (Ne.symm hne)))
        rw [if_neg, he, hg, d1]
        rw [hd]
        split
        · rename_i ht
          intro heq
          exact hA.dh.mp ((mod3 _).mp ht) (Option.some.inj heq)
        · simp
      · rw [hA.bn]; simp
      · rw [hx, UInt32.lt_iff_toNat_lt, predSat_toNat]
        rintro (h0 | ⟨h0, h1⟩)
        · omega
        · have h2 : b.i.toNat = 0 := by
            have := congrArg UInt32.toNat h0
            rw [predSat_toNat] at this
            omega
          rw [hA.z h2, UInt32.lt_iff_toNat_lt] at h1
          exact Nat.not_lt_zero _ h1
      · rw [gt_iff_lt, hx, UInt32.lt_iff_toNat_lt]
        omega
    have hid : d.receiver.id.toNat = 0 := by rw [d2]; rfl
    obtain ⟨rv, hdec⟩ := decrypt4_of (our := oa) (their := ob) hsp (by omega) (by
      rw [hid, Nat.sub_zero, d2]; exact hs)
    have hj1 := (incId_of_lt hs.j).2
    rw [hid, Nat.sub_zero, d2] at hdec
    have hmir := d5 ⟨chainFwd E (x.1.j.toNat + 1) (newChain E a b).chain, x.1.j + 1⟩ rv (by
      refine hA.ab.eat (by rw [hj1]; simp [newChain]) ?_
      simp only [idLt, id4, sentPos, hA.an, if_true, hx] at hxlt
      omega)
    refine ⟨_, hdec, ⟨.inr (.inl hmir), ⟨?_, hq.inc, hq.lt⟩, ⟨?_, h.qb.inc, ?_⟩⟩, .inr ⟨hx, hmir⟩⟩
    · intro y hy
      have hlt := hafter y hy
      simp only [idLt, id4, hx] at hlt
      rcases hq.under y hy with hy' | ⟨hy1, _⟩ | ⟨hy1, hy2, hy3, hy4, hy5⟩
      · omega
      · omega
      · rw [hy1] at hlt
        refine .inr (.inl ⟨by rw [hy1]; exact d3.symm, by simp only [hj1]; omega, ?_⟩)
        simp only [hj1]
        rw [← chainFwd_add]
        have e : x.1.j.toNat + 1 + (y.1.j.toNat - (x.1.j.toNat + 1)) = y.1.j.toNat := by omega
        rw [e]
        exact hy5
    · intro y hy
      rcases h.qb.under y hy with hy' | hy' | ⟨_, hy', _⟩
      · exact .inl hy'
      · exact .inr (.inl hy')
      · omega
    · intro y hy
      have := h.qb.lt y hy
      have hdn : d.next = .sender := hmir.an
      simp only [idLt, sentPos, hA.bn, if_true, hdn, reduceCtorEq, if_false] at this ⊢
      rw [d3, d4]
      omega

/-! ## All reachable states -/

theorem start4_inv {E : Env} (hc : GoodCurve E.curve) {a b : Enc4} (h : Start4 E a b) :
    PInv E a.our b.our a.ratchet b.ratchet [] [] ∧ (Ahead E b.ratchet a.ratchet ∧ a.ratchet.i = 0) := by
  obtain ⟨xa, xb, ya, yb, sa, sb, root, t1, t2, t3, rnd, h1, h2, h3, h4, h5⟩ := h.ex
  obtain ⟨_, a2, _, a4, a5⟩ := Mixed.next_ok h1
  obtain ⟨_, b2, _, b4, b5⟩ := Mixed.next_ok h2
  have hdh : DH.Keypair.sharedSecret E.dh3 (DH.Keypair.new E.dh3 ya) (DH.Keypair.new E.dh3 yb).pub =
      DH.Keypair.sharedSecret E.dh3 (DH.Keypair.new E.dh3 yb) (DH.Keypair.new E.dh3 ya).pub := by
    simp only [DH.Keypair.sharedSecret, DH.Keypair.new, DH.Keypair.newCustom, modpow]
    rw [← Nat.pow_mod, ← Nat.pow_mod, ← Nat.pow_mul, ← Nat.pow_mul, Nat.mul_comm]
  have hec : ECDHKeyPair.sharedSecret E ⟨xa, Point.mul E.curve E.curve.G xa⟩ (Point.mul E.curve E.curve.G xb) =
      ECDHKeyPair.sharedSecret E ⟨xb, Point.mul E.curve E.curve.G xb⟩ (Point.mul E.curve E.curve.G xa) := by
    have := Fact.mk hc.field.prime
    have := hc.field.good
    obtain ⟨A, hA⟩ := OnCurve.rep hc.base
    exact (((hA.mul _).mul _).eq_iff ((hA.mul _).mul _)).mpr (smul_comm ..)
  have hbrace : sa.brace = sb.brace := by
    have : Res.ok sa.brace = Res.ok sb.brace := by
      rw [← a4, ← b4]
      simp only [Mixed.nextBrace, if_true, hdh]
    exact Res.ok.inj this
  have hk : sa.k = sb.k := by rw [a5, b5]; simp only [hec, hbrace]
  have hM : Mirror0 E (DoubleRatchet.init E .receiver sb root t2) (DoubleRatchet.init E .sender sa root t1) := by
    refine ⟨rfl, rfl, rfl, ?_, ?_, ?_, ?_, ?_, ?_, ?_, ?_, ?_, ?_⟩
    · simp only [DoubleRatchet.init]; rw [b5]; exact ⟨rfl, rfl⟩
    · simp only [DoubleRatchet.init]; rw [a5]; exact ⟨rfl, rfl⟩
    · simp only [DoubleRatchet.init]; rw [a5, b5]
    · simp only [DoubleRatchet.init]; rw [a5, b5]
    · simp only [DoubleRatchet.init]; rw [a5, b5]
    · simp only [DoubleRatchet.init]; rw [a5, b5]
    · simp only [DoubleRatchet.init]; rw [a5]; exact a2
    · simp only [DoubleRatchet.init]; rw [hk]
    · simp only [DoubleRatchet.init]; exact hbrace.symm
    · simp only [DoubleRatchet.init]; rw [hk]; exact Aligned.refl _ _
  have hA : Ahead E b.ratchet a.ratchet := by
    rw [h3]
    refine hM.send (rv := []) (r := rnd) (now := t3) h4 ?_ (fun _ => rfl)
    intro _
    simp only [DoubleRatchet.init]
    rw [b5]
    exact h5
  refine ⟨⟨.inr (.inr (.inr hA)), ⟨by simp, by simp, by simp⟩, ⟨by simp, by simp, by simp⟩⟩, hA, ?_⟩
  rw [h3]
  rfl

theorem handle4_ratchet {E : Env} {m : DataMessage4} {ad : Bytes} {now : Nat} {s s' : Enc4}
    {r : Res (PMessage × Bool)} (h : Enc4.handle E m ad now s = (r, s')) (hp : r ≠ .panic) :
    s'.our = s.our ∧ s'.their = s.their ∧
    ((∃ e, decrypt4 E m ad now s.ratchet = .err e ∧ s'.ratchet = s.ratchet) ∨
      ∃ p, decrypt4 E m ad now s.ratchet = .ok (p, s'.ratchet)) := by
  rcases handle4_cases h hp with ⟨_, rfl, e, he⟩ | ⟨p, d, hd, rfl, _⟩
  · exact ⟨rfl, rfl, .inl ⟨e, he, rfl⟩⟩
  · exact ⟨rfl, rfl, .inr ⟨p, hd⟩⟩

theorem PInv.handle {E : Env} (hc : GoodCurve E.curve) (hG : GoodGroup E.dh3) {oa ob : UInt32} {a : DoubleRatchet}
    {s s' : Enc4} {m : DataMessage4} {plain : Bytes} {ab ba : List (DataMessage4 × Bytes)}
    (h : PInv E oa ob a s.ratchet ((m, plain) :: ab) ba) {now : Nat} {r : Res (PMessage × Bool)}
    (hh : Enc4.handle E m (authenticatorData4 4 oa ob m) now s = (r, s')) (hp : r ≠ .panic) :
    PInv E oa ob a s'.ratchet ab ba := by
  obtain ⟨_, _, h1⟩ := handle4_ratchet hh hp
  rcases h.recv hc hG now with ⟨_, h2, h3⟩ | ⟨_, b', h2, h3, _⟩
  · rcases h1 with ⟨_, _, e⟩ | ⟨p, h1⟩
    · rw [e]; exact h3
    · rw [h2] at h1; cases h1
  · rcases h1 with ⟨e, h1, _⟩ | ⟨p, h1⟩
    · rw [h2] at h1; cases h1
    · rw [h2] at h1
      simp only [Res.ok.injEq, Prod.mk.injEq] at h1
      rw [← h1.2]
      exact h3

theorem reach4_inv {E : Env} (hc : GoodCurve E.curve) (hG : GoodGroup E.dh3) {s : Pair4} (h : Reach4 E s) :
    PInv E s.a.our s.b.our s.a.ratchet s.b.ratchet s.ab s.ba ∧ s.a.their = s.b.our ∧ s.b.their = s.a.our := by
  induction h with
  | start h => exact ⟨(start4_inv hc h).1, h.tags⟩
  | @sendA s flags plain rnd now m a' _ he hf ih =>
    obtain ⟨I, t1, t2⟩ := ih
    obtain ⟨h1, h2⟩ := encrypt4_enc he
    rw [t1] at h1
    have hI := I.send h1 hf
    have e1 : a'.our = s.a.our := by rw [h2]
    have e2 : a'.their = s.a.their := by rw [h2]
    simp only
    rw [e1, e2]
    exact ⟨hI, t1, t2⟩
  | @sendB s flags plain rnd now m b' _ he hf ih =>
    obtain ⟨I, t1, t2⟩ := ih
    obtain ⟨h1, h2⟩ := encrypt4_enc he
    rw [t2] at h1
    have hI := I.symm.send h1 hf
    have e1 : b'.our = s.b.our := by rw [h2]
    have e2 : b'.their = s.b.their := by rw [h2]
    simp only
    rw [e1, e2]
    exact ⟨hI.symm, t1, t2⟩
  | @recvB s m plain rest now r b' _ hq hh hp ih =>
    obtain ⟨I, t1, t2⟩ := ih
    rw [hq] at I
    obtain ⟨e1, e2, _⟩ := handle4_ratchet hh hp
    simp only
    rw [e1, e2]
    exact ⟨I.handle hc hG hh hp, t1, t2⟩
  | @recvA s m plain rest now r a' _ hq hh hp ih =>
    obtain ⟨I, t1, t2⟩ := ih
    rw [hq] at I
    obtain ⟨e1, e2, _⟩ := handle4_ratchet hh hp
    simp only
    rw [e1, e2]
    exact ⟨(I.symm.handle hc hG hh hp).symm, t1, t2⟩
  | @loseB s x rest _ hq ih =>
    obtain ⟨I, t⟩ := ih
    rw [hq] at I
    exact ⟨⟨I.rel, ⟨fun y hy => I.qa.under y (List.mem_cons_of_mem _ hy), (List.pairwise_cons.mp I.qa.inc).2,
      fun y hy => I.qa.lt y (List.mem_cons_of_mem _ hy)⟩, I.qb⟩, t⟩
  | @loseA s x rest _ hq ih =>
    obtain ⟨I, t⟩ := ih
    rw [hq] at I
    exact ⟨⟨I.rel, I.qa, ⟨fun y hy => I.qb.under y (List.mem_cons_of_mem _ hy), (List.pairwise_cons.mp I.qb.inc).2,
      fun y hy => I.qb.lt y (List.mem_cons_of_mem _ hy)⟩⟩, t⟩

theorem Spec.Calm4.reach {E : Env} {s : Pair4} (h : Calm4 E s) : Reach4 E s := by
  induction h with
  | start h => exact .start h
  | sendA _ _ he hf ih => exact .sendA ih he hf
  | sendB _ _ he hf ih => exact .sendB ih he hf
  | recvB _ hq hh hp ih => exact .recvB ih hq hh hp
  | recvA _ hq hh hp ih => exact .recvA ih hq hh hp

/-- No message under way to `b` is too old, and if `a` is ahead then a message that tells so is under way. -/
structure Calm (E : Env) (a b : DoubleRatchet) (q : List (DataMessage4 × Bytes)) : Prop where
  recent : ∀ x ∈ q, b.i.toNat ≤ x.1.i.toNat + 1
  told : a.i.toNat = b.i.toNat + 1 → b.i.toNat = 0 ∨ ∃ x ∈ q, x.1.i = b.i

theorem encrypt4_i {E : Env} {our their : UInt32} {flags : UInt8} {content reveals : Bytes} {r : Rand}
    {now : Nat} {d d' : DoubleRatchet} {m : DataMessage4}
    (h : encrypt4 E our their flags content reveals r now d = .ok (m, d')) :
    m.i.toNat = d'.i.toNat - 1 ∧ (d'.i.toNat = d.i.toNat ∧ d.next = .receiver ∨
      d'.i.toNat = d.i.toNat + 1 ∧ d.next = .sender) := by
  obtain ⟨rv, d1, keys, h1, h2, h3, h4, h5⟩ := encrypt4_ok h
  obtain ⟨h6, h7, h8, h9, h10⟩ := DoubleRatchet.rotateSenderChain_ok h5
  have e1 : d'.i = d1.i := by rw [h7]
  refine ⟨by rw [e1, h3]; exact predSat_toNat _, ?_⟩
  rw [e1]
  rcases ratchetForSend_ok h1 with ⟨n1, _, n3⟩ | ⟨n1, _, n3⟩
  · exact .inr ⟨(DoubleRatchet.rotateSender_ok n3).2.2.2.2.2.2.1, n1⟩
  · subst n3; exact .inl ⟨rfl, n1⟩

theorem PInv.calm_send {E : Env} {oa ob : UInt32} {a b a' : DoubleRatchet} {ab : List (DataMessage4 × Bytes)}
    (h : PInv E oa ob a b ab []) (c1 : Calm E a b ab) (c2 : Calm E b a []) {flags : UInt8} {plain reveals : Bytes} {r : Rand}
    {now : Nat} {m : DataMessage4} (he : encrypt4 E oa ob flags plain reveals r now a = .ok (m, a')) :
    Calm E a' b (ab ++ [(m, plain)]) ∧ Calm E b a' [] := by
  obtain ⟨h1, h2⟩ := encrypt4_i he
  have hrel : a.next = .sender ∧ a.i.toNat = b.i.toNat ∧ 1 ≤ a.i.toNat ∨
      a.next = .receiver ∧ a.i.toNat = b.i.toNat ∧ 1 ≤ a.i.toNat ∨
      a.next = .receiver ∧ a.i.toNat = b.i.toNat + 1 ∨
      a.next = .receiver ∧ a.i.toNat = 0 ∧ b.i.toNat = 1 := by
    rcases h.rel with hM | hM | hA | hA
    · exact .inl ⟨hM.an, by rw [hM.i], hM.pos⟩
    · exact .inr (.inl ⟨hM.bn, by rw [hM.i], hM.i ▸ hM.pos⟩)
    · exact .inr (.inr (.inl ⟨hA.an, hA.i⟩))
    · refine .inr (.inr (.inr ⟨hA.bn, ?_⟩))
      rcases c2.told hA.i with h0 | ⟨x, hx, _⟩
      · exact ⟨h0, by rw [hA.i, h0]⟩
      · simp at hx
  have hmi : b.i.toNat ≤ m.i.toNat + 1 ∧ (a'.i.toNat = b.i.toNat + 1 → m.i.toNat = b.i.toNat) ∧
      (b.i.toNat = a'.i.toNat + 1 → a'.i.toNat = 0) := by
    rcases hrel with ⟨n, _, _⟩ | ⟨n, _, _⟩ | ⟨n, _⟩ | ⟨n, _, _⟩ <;> rw [n] at h2 <;>
      simp only [reduceCtorEq, and_false, and_true, or_false, false_or] at h2 <;> omega
  constructor
  · constructor
    · intro x hx
      rw [List.mem_append, List.mem_singleton] at hx
      rcases hx with hx | rfl
      · exact c1.recent x hx
      · exact hmi.1
    · intro hi
      exact .inr ⟨(m, plain), by simp, UInt32.toNat_inj.mp (hmi.2.1 hi)⟩
  · exact ⟨by simp, fun hi => .inl (hmi.2.2 hi)⟩

theorem PInv.calm_handle {E : Env} (hc : GoodCurve E.curve) (hG : GoodGroup E.dh3) {oa ob : UInt32} {a : DoubleRatchet}
    {s s' : Enc4} {m : DataMessage4} {plain : Bytes} {ab ba : List (DataMessage4 × Bytes)}
    (h : PInv E oa ob a s.ratchet ((m, plain) :: ab) ba) (c1 : Calm E a s.ratchet ((m, plain) :: ab))
    (c2 : Calm E s.ratchet a ba) {now : Nat} {r : Res (PMessage × Bool)}
    (hh : Enc4.handle E m (authenticatorData4 4 oa ob m) now s = (r, s')) (hp : r ≠ .panic) :
    Calm E a s'.ratchet ab ∧ Calm E s'.ratchet a ba := by
  obtain ⟨_, _, h1⟩ := handle4_ratchet hh hp
  rcases h.recv hc hG now with ⟨h4, _, _⟩ | ⟨_, b', h2, h3, h5⟩
  · have := c1.recent _ List.mem_cons_self
    omega
  · rcases h1 with ⟨e, h1, _⟩ | ⟨p, h1⟩
    · rw [h2] at h1; cases h1
    · rw [h2] at h1
      simp only [Res.ok.injEq, Prod.mk.injEq] at h1
      rw [← h1.2]
      rcases h5 with h5 | ⟨h5, h6⟩
      · refine ⟨⟨?_, ?_⟩, ⟨c2.recent, by rw [h5]; exact c2.told⟩⟩
        · intro x hx
          rw [h5]
          exact c1.recent x (List.mem_cons_of_mem _ hx)
        · intro hi
          rw [h5] at hi ⊢
          rcases c1.told hi with h0 | ⟨x, hx, hx'⟩
          · exact .inl h0
          · rw [List.mem_cons] at hx
            rcases hx with rfl | hx
            · exfalso
              -- a message of the new ratchet would have made the receiver rotate
              have hs := (decrypt4_ok h2)
              obtain ⟨sp, _, hs, _, _, _, _, _, _, hb⟩ := hs
              rcases speculate4_ok hs with ⟨_, _, _, _, hr⟩ | ⟨hr, _⟩
              · have := (DoubleRatchet.rotateReceiver_ok hr).2.2.2.2.2.2.2.2.1
                rw [hb] at h5
                simp only at h5
                rw [h5] at this
                omega
              · rw [hx'] at hr; omega
            · exact .inr ⟨x, hx, hx'⟩
      · have hi := h6.i
        refine ⟨⟨?_, by rw [hi]; omega⟩, ⟨c2.recent, by rw [hi]; omega⟩⟩
        intro x hx
        have := (List.pairwise_cons.mp h.qa.inc).1 _ (List.mem_map_of_mem hx)
        simp only [idLt, id4] at this h5
        have hs := (decrypt4_ok h2)
        obtain ⟨sp, _, hs, _, _, _, _, _, _, hb⟩ := hs
        have hbi : b'.i.toNat = s.ratchet.i.toNat + 1 := by
          have hbs : b'.i = sp.i := by rw [hb]
          rw [hbs]
          rcases speculate4_ok hs with ⟨_, _, _, _, hr⟩ | ⟨hr, _⟩
          · exact (DoubleRatchet.rotateReceiver_ok hr).2.2.2.2.2.2.2.2.1
          · rw [h5] at hr; omega
        rw [h5] at this
        omega

theorem calm4_inv {E : Env} (hc : GoodCurve E.curve) (hG : GoodGroup E.dh3) {s : Pair4} (h : Calm4 E s) :
    Calm E s.a.ratchet s.b.ratchet s.ab ∧ Calm E s.b.ratchet s.a.ratchet s.ba := by
  induction h with
  | start h =>
    obtain ⟨_, hA, h0⟩ := start4_inv hc h
    have hi := hA.i
    exact ⟨⟨by simp, by simp only; omega⟩, ⟨by simp, fun _ => .inl (by rw [h0]; rfl)⟩⟩
  | @sendA s flags plain rnd now m a' hs hb he hf ih =>
    obtain ⟨I, t1, t2⟩ := reach4_inv hc hG hs.reach
    obtain ⟨h1, h2⟩ := encrypt4_enc he
    rw [t1] at h1
    simp only
    rw [hb] at I ih ⊢
    exact I.calm_send ih.1 ih.2 h1
  | @sendB s flags plain rnd now m b' hs hb he hf ih =>
    obtain ⟨I, t1, t2⟩ := reach4_inv hc hG hs.reach
    obtain ⟨h1, h2⟩ := encrypt4_enc he
    rw [t2] at h1
    simp only
    rw [hb] at I ih ⊢
    exact (I.symm.calm_send ih.2 ih.1 h1).symm
  | @recvB s m plain rest now r b' hs hq hh hp ih =>
    obtain ⟨I, t1, t2⟩ := reach4_inv hc hG hs.reach
    rw [hq] at I ih
    exact I.calm_handle hc hG ih.1 ih.2 hh hp
  | @recvA s m plain rest now r a' hs hq hh hp ih =>
    obtain ⟨I, t1, t2⟩ := reach4_inv hc hG hs.reach
    rw [hq] at I ih
    exact (I.symm.calm_handle hc hG ih.2 ih.1 hh hp).symm

end Otrr
