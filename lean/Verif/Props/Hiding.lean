import Verif.Lemmas.Hiding
import Verif.Props.Crypto
import Verif.Props.Smp4
/-! C98: whether a ring signature tells which of the three keys made it. -/

namespace Otrr.Props
open Otrr Otrr.Spec Otrr.SMP4

/-- C98, first half, false of the code: a random scalar is pruned before it is reduced, so on the curve of the code its second lowest bit
is 1 (unless it is tiny).  The signer draws the two numbers of the two other keys in this way, and computes the two numbers of the own
key.  A signature in which the second lowest bit of one of the six numbers is 0 can only have been made by the key this number belongs
to, whatever the random numbers. -/
theorem C98_reveals (E : Env) (hE : E.curve = ed448) (A1 A2 A3 : Point) (h1 : GoodKey ed448 A1) (h2 : GoodKey ed448 A2)
    (h3 : GoodKey ed448 A3) (m : Bytes) (s : RingSignature) (A : Point) (c r : Nat) (hp : (A, c, r) ∈ parts A1 A2 A3 s)
    (ht : Telling c ∨ Telling r) (k : EdDSAKeyPair) (hk : k.pub = Point.mul ed448 ed448.G k.sk) (hs : CanMake E k A1 A2 A3 m s) :
    k.pub = A := by
  rw [← hE] at h1 h2 h3 hk
  obtain ⟨d, hd, h⟩ := (canMake_iff (hE ▸ ed448_goodCurve) hk h1 h2 h3 m).mp hs
  have no : ∀ i, ¬ Telling (d i) := fun i => by
    obtain ⟨b, hb, e⟩ := hd i
    rw [← e]
    exact random_not_telling hE b
  simp only [parts, List.mem_cons, List.not_mem_nil, or_false, Prod.mk.injEq] at hp
  rcases h with ⟨e1, _, _, rfl⟩ | ⟨_, e2, _, rfl⟩ | ⟨_, _, e3, rfl⟩ <;> rcases hp with ⟨rfl, rfl, rfl⟩ | ⟨rfl, rfl, rfl⟩ | ⟨rfl, rfl, rfl⟩ <;>
    first | assumption | (exfalso; rcases ht with ht | ht <;> exact no _ ht)

/-- Primitives for the next theorem: the curve of the code and a constant hash. -/
def constEnv : Env := { toyEnv with
  curve := ed448
  shake := fun n _ => (List.range n).map fun i => if i = 0 then 1 else 0
  shake_len := fun n _ => by rw [List.length_map, List.length_range] }

/-- The key pair with this secret. -/
def pair (n : Nat) : EdDSAKeyPair := ⟨[], n, Point.mul ed448 ed448.G n⟩

theorem pair_pub (n : Nat) : (pair n).pub = Point.mul ed448 ed448.G (pair n).sk := by simp only [pair]

theorem pair_good {n : Nat} (h : n % ed448.q ≠ 0) : GoodKey ed448 (pair n).pub :=
  goodKey_mul ed448_smpCurve (goodKey_G ed448_smpCurve) h

open Edwards in
theorem pair_ne {a b : Nat} (h : (a + b * (ed448.q - 1)) % ed448.q ≠ 0) : (pair a).pub ≠ (pair b).pub := by
  have hc := ed448_goodCurve
  have := Fact.mk hc.field.prime
  have := hc.field.good
  obtain ⟨G, hG⟩ := OnCurve.rep hc.base
  have hq : ed448.q • G = 0 := (hG.mul ed448.q).eq_iff rep_identity |>.mp hc.order
  intro e
  have e := ((hG.mul a).eq_iff (hG.mul b)).mp e
  apply h
  rw [← mul_eq_identity ed448_smpCurve (goodKey_G ed448_smpCurve), (hG.mul _).eq_iff rep_identity, add_smul, e, ← add_smul,
    show b + b * (ed448.q - 1) = b * ed448.q by
      have := hc.big
      rw [← Nat.mul_one b, Nat.mul_assoc, ← Nat.mul_add]; congr 1; omega,
    mul_smul, hq, smul_zero]

/-- The constant challenge. -/
theorem const_challenge (A1 A2 A3 T1 T2 T3 : Point) (m : Bytes) : ringChallenge constEnv A1 A2 A3 T1 T2 T3 m = 1 := by
  unfold ringChallenge hashToScalar kdf
  generalize (_ ++ _ : Bytes) = x
  have h : ∀ x, leNat (constEnv.shake 57 x) % constEnv.curve.q = leNat ((List.range 57).map fun i => if i = 0 then 1 else 0) % ed448.q :=
    fun _ => by simp only [constEnv]
  rw [h]
  decide +kernel

theorem const_made {k : EdDSAKeyPair} (hk : k.pub = Point.mul ed448 ed448.G k.sk) {A2 A3 : Point} (h1 : GoodKey ed448 k.pub)
    (h2 : GoodKey ed448 A2) (h3 : GoodKey ed448 A3) (n2 : k.pub ≠ A2) (n3 : k.pub ≠ A3) (m : Bytes) :
    ∃ s, CanMake constEnv k k.pub A2 A3 m s ∧ Telling s.c1 ∧ s.validate constEnv k.pub A2 A3 m = .ok () := by
  have hE : constEnv.curve = ed448 := by simp only [constEnv]
  have hd : RandomScalar constEnv (2 ^ 447 % ed448.q) := by
    refine ⟨List.replicate 57 0, by rw [List.length_replicate], ?_⟩
    unfold randomInZq
    simp only [constEnv]
    decide +kernel
  rw [← hE] at h1 h2 h3 hk
  have hc : GoodCurve constEnv.curve := hE ▸ ed448_goodCurve
  have hm : CanMake constEnv k k.pub A2 A3 m _ :=
    (canMake_iff hc hk h1 h2 h3 m).mpr ⟨fun _ => 2 ^ 447 % ed448.q, fun _ => hd, .inl ⟨rfl, n2, n3, rfl⟩⟩
  refine ⟨_, hm, ?_, ?_⟩
  · unfold made1
    dsimp only
    rw [const_challenge, hE]
    unfold Telling
    decide +kernel
  · have h := (made_valid hc hk h1 h2 h3 hm).1
    unfold RingSignature.validate
    unfold challengeOf commitment at h
    dsimp only
    rw [h, ← h, const_challenge]
    exact compareScalars_self (by decide)

/-- C98 is false of the code: there is a signature, made by the holder of one of three keys and valid, that neither of the two others can
make with any random numbers. -/
theorem C98_violated : ∃ E : Env, E.curve = ed448 ∧ ∃ k1 k2 k3 : EdDSAKeyPair,
    (∀ k ∈ [k1, k2, k3], k.pub = Point.mul ed448 ed448.G k.sk ∧ GoodKey ed448 k.pub) ∧ k1.pub ≠ k2.pub ∧ k1.pub ≠ k3.pub ∧ k2.pub ≠ k3.pub ∧
    ∃ m s, CanMake E k1 k1.pub k2.pub k3.pub m s ∧ s.validate E k1.pub k2.pub k3.pub m = .ok () ∧
      ¬ CanMake E k2 k1.pub k2.pub k3.pub m s ∧ ¬ CanMake E k3 k1.pub k2.pub k3.pub m s := by
  have hE : constEnv.curve = ed448 := by simp only [constEnv]
  have g5 : GoodKey ed448 (pair 5).pub := pair_good (by decide +kernel)
  have g7 : GoodKey ed448 (pair 7).pub := pair_good (by decide +kernel)
  have g11 : GoodKey ed448 (pair 11).pub := pair_good (by decide +kernel)
  have n1 : (pair 5).pub ≠ (pair 7).pub := pair_ne (by decide +kernel)
  have n2 : (pair 5).pub ≠ (pair 11).pub := pair_ne (by decide +kernel)
  have n3 : (pair 7).pub ≠ (pair 11).pub := pair_ne (by decide +kernel)
  have k5 := pair_pub 5
  have k7 := pair_pub 7
  have k11 := pair_pub 11
  generalize pair 5 = k1 at *
  generalize pair 7 = k2 at *
  generalize pair 11 = k3 at *
  obtain ⟨s, hs, ht, hv⟩ := const_made k5 g5 g7 g11 n1 n2 []
  refine ⟨constEnv, hE, k1, k2, k3, ?_, n1, n2, n3, [], s, hs, hv, ?_, ?_⟩
  · simp only [List.mem_cons, List.not_mem_nil, or_false, forall_eq_or_imp, forall_eq]
    exact ⟨⟨k5, g5⟩, ⟨k7, g7⟩, ⟨k11, g11⟩⟩
  · exact fun h => n1 (C98_reveals constEnv hE _ _ _ g5 g7 g11 [] _ _ _ _ (.head _) (.inl ht) k2 k7 h).symm
  · exact fun h => n2 (C98_reveals constEnv hE _ _ _ g5 g7 g11 [] _ _ _ _ (.head _) (.inl ht) k3 k11 h).symm

/-- C98 as far as it holds: a signature of one holder all of whose numbers can be drawn is one that the holder of another key of the ring
can make as well, if the number this holder would have committed to can be drawn. -/
theorem C98_hides_partial (E : Env) (hc : GoodCurve E.curve) (A1 A2 A3 : Point) (h1 : GoodKey E.curve A1) (h2 : GoodKey E.curve A2)
    (h3 : GoodKey E.curve A3) (m : Bytes) (s : RingSignature) (k : EdDSAKeyPair) (hk : k.pub = Point.mul E.curve E.curve.G k.sk)
    (hs : CanMake E k A1 A2 A3 m s) (hr : ∀ A c r, (A, c, r) ∈ parts A1 A2 A3 s → RandomScalar E c ∧ RandomScalar E r)
    (k' : EdDSAKeyPair) (hk' : k'.pub = Point.mul E.curve E.curve.G k'.sk) (hone : [A1, A2, A3].count k'.pub = 1)
    (ht : ∀ c r, (k'.pub, c, r) ∈ parts A1 A2 A3 s → RandomScalar E ((r + c * k'.sk) % E.curve.q)) :
    CanMake E k' A1 A2 A3 m s := by
  obtain ⟨v, l⟩ := made_valid hc hk h1 h2 h3 hs
  refine make_valid hc hk' h1 h2 h3 v l hone fun p hp => ?_
  split
  · rename_i e
    exact ht _ _ (e ▸ hp)
  · exact hr _ _ _ hp

/-- On the small curve of the examples every scalar can be drawn. -/
theorem toy_draws {n : Nat} (h : n < 13) : RandomScalar toyEnv n := by
  have key : ∀ n : Fin 13, ∃ i : Fin 60, randomInZq toyEnv (UInt8.ofNat i.val :: List.replicate 56 0) = n.val := by decide +kernel
  obtain ⟨i, hi⟩ := key ⟨n, h⟩
  exact ⟨_, rfl, hi⟩

/-- There both hypotheses hold of every signature, and each holder can make what another made. -/
theorem toy_hides (A1 A2 A3 : Point) (h1 : GoodKey toyCurve A1) (h2 : GoodKey toyCurve A2) (h3 : GoodKey toyCurve A3) (m : Bytes)
    (s : RingSignature) (k k' : EdDSAKeyPair) (hk : k.pub = Point.mul toyCurve toyCurve.G k.sk) (hs : CanMake toyEnv k A1 A2 A3 m s)
    (hk' : k'.pub = Point.mul toyCurve toyCurve.G k'.sk) (hone : [A1, A2, A3].count k'.pub = 1) : CanMake toyEnv k' A1 A2 A3 m s := by
  have lt := (made_valid (E := toyEnv) toy_goodCurve hk h1 h2 h3 hs).2
  refine C98_hides_partial toyEnv toy_goodCurve A1 A2 A3 h1 h2 h3 m s k hk hs ?_ k' hk' hone fun _ _ _ => toy_draws (Nat.mod_lt _ (by decide))
  intro A c r hp
  simp only [parts, List.mem_cons, List.not_mem_nil, or_false, Prod.mk.injEq] at hp
  obtain ⟨l1, l2, l3, l4, l5, l6⟩ := lt
  rcases hp with ⟨rfl, rfl, rfl⟩ | ⟨rfl, rfl, rfl⟩ | ⟨rfl, rfl, rfl⟩
  exacts [⟨toy_draws l1, toy_draws l2⟩, ⟨toy_draws l3, toy_draws l4⟩, ⟨toy_draws l5, toy_draws l6⟩]

/-- A signature of the second key, which the first can make too. -/
example : ∃ s, CanMake toyEnv toyKey (Point.mul toyCurve toyCurve.G 3) (Point.mul toyCurve toyCurve.G 5) (Point.mul toyCurve toyCurve.G 8) [1, 2] s ∧
    CanMake toyEnv ⟨[], 3, Point.mul toyCurve toyCurve.G 3⟩ (Point.mul toyCurve toyCurve.G 3) (Point.mul toyCurve toyCurve.G 5)
      (Point.mul toyCurve toyCurve.G 8) [1, 2] s := by
  have g3 := toyMul_good 3 (by decide +kernel)
  have g5 := toyMul_good 5 (by decide +kernel)
  have g8 := toyMul_good 8 (by decide +kernel)
  obtain ⟨s, hs, _⟩ := C60_ring_signature toyEnv toy_goodCurve toyKey rfl _ _ _ g3 g5 g8 (by decide +kernel) [1, 2] (toyRand 5)
  exact ⟨s, ⟨_, hs⟩, toy_hides _ _ _ g3 g5 g8 _ _ toyKey _ rfl ⟨_, hs⟩ rfl (by decide +kernel)⟩

end Otrr.Props
