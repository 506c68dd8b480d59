import Verif.Spec.Hiding
import Verif.Lemmas.Ring
import Verif.Lemmas.Bytes
/-!
Lemmas about random scalars and about who can make a ring signature.
-/

namespace Otrr
open Spec

/-! ## Random scalars -/

theorem leNat_append (a b : Bytes) : leNat (a ++ b) = leNat a + 256 ^ a.length * leNat b := by
  induction a with
  | nil => simp [leNat]
  | cons x a ih =>
    simp only [List.cons_append, leNat, ih, List.length_cons, Nat.pow_succ]
    ring

theorem and_fc (x : UInt8) : (x &&& 0xfc).toNat % 4 = 0 := by
  have key : ∀ n : Fin 256, (UInt8.ofNat n.val &&& 0xfc).toNat % 4 = 0 := by decide +kernel
  have := key ⟨x.toNat, x.toNat_lt⟩
  simpa using this

theorem or_80 (x : UInt8) : 128 ≤ (x ||| 0x80).toNat := by
  have key : ∀ n : Fin 256, 128 ≤ (UInt8.ofNat n.val ||| 0x80).toNat := by decide +kernel
  have := key ⟨x.toNat, x.toNat_lt⟩
  simpa using this

theorem split57 {v : Bytes} (h : v.length = 57) : ∃ x m y z, v = x :: (m ++ [y, z]) ∧ m.length = 54 := by
  match v, h with
  | x :: w, h =>
    simp only [List.length_cons] at h
    refine ⟨x, w.take 54, w.getD 54 0, w.getD 55 0, ?_, by rw [List.length_take]; omega⟩
    congr 1
    conv_lhs => rw [← List.take_append_drop 54 w]
    congr 1
    have h2 : (w.drop 54).length = 2 := by rw [List.length_drop]; omega
    match hd : w.drop 54, h2 with
    | [a, b], _ =>
      have e1 : w[54]? = some a := by rw [← List.getElem?_drop (i := 54) (j := 0), hd]; rfl
      have e2 : w[55]? = some b := by rw [← List.getElem?_drop (i := 54) (j := 1), hd]; rfl
      simp [List.getD, e1, e2]

theorem prune_bounds {v : Bytes} (h : v.length = 57) :
    2 ^ 447 ≤ leNat (prune v) ∧ leNat (prune v) < 2 ^ 448 ∧ leNat (prune v) % 4 = 0 := by
  obtain ⟨x, m, y, z, rfl, hm⟩ := split57 h
  have e : prune (x :: (m ++ [y, z])) = (x &&& 0xfc) :: (m ++ [y ||| 0x80, 0]) := by
    have e1 : (m ++ [y, z]).getD 54 0 = y := by simp [List.getD, hm]
    simp only [prune, List.getD_cons_zero, List.getD_cons_succ, e1, List.set_cons_zero, List.set_cons_succ]
    congr 1
    rw [List.set_append_right 54 _ (Nat.le_of_eq hm), List.set_append_right 55 _ (by omega), hm]
    rfl
  rw [e]
  simp only [leNat, leNat_append, hm]
  have h1 := and_fc x
  have h2 := or_80 y
  have h3 := (y ||| 0x80).toNat_lt
  have h4 := leNat_lt m
  have h5 := (x &&& 0xfc).toNat_lt
  rw [hm] at h4
  generalize (x &&& 0xfc).toNat = a at *
  generalize (y ||| 0x80).toNat = b at *
  generalize leNat m = c at *
  have z : ((0 : UInt8).toNat) = 0 := rfl
  rw [z]
  norm_num at h4 ⊢
  omega

/-- A random scalar of Ed448 has its second lowest bit set, unless it is tiny. -/
theorem random_not_telling {E : Env} (hE : E.curve = ed448) (b : Bytes) : ¬ Telling (randomInZq E b) := by
  obtain ⟨h1, h2, h3⟩ := prune_bounds (E.shake_len 57 b)
  unfold Telling randomInZq
  rw [hE]
  generalize leNat (prune (E.shake 57 b)) = v at *
  simp only [ed448]
  norm_num at h1 h2 ⊢
  generalize hk : v / 181709681073901722637330951972001133588410340171829515070372549795146003961539585716195755291692375963310293709091662304773755859649779 = k
  have h4 := Nat.div_add_mod v 181709681073901722637330951972001133588410340171829515070372549795146003961539585716195755291692375963310293709091662304773755859649779
  have h5 := Nat.mod_lt v (show 0 < 181709681073901722637330951972001133588410340171829515070372549795146003961539585716195755291692375963310293709091662304773755859649779 by norm_num)
  rw [hk] at h4
  generalize v % 181709681073901722637330951972001133588410340171829515070372549795146003961539585716195755291692375963310293709091662304773755859649779 = n at *
  have h6 : k = 2 ∨ k = 3 ∨ k = 4 := by omega
  intro h7
  rcases h6 with rfl | rfl | rfl <;> omega

/-- A random source that yields given scalars. -/
theorem rand_of {E : Env} (d : Nat → Nat) (h : ∀ i, RandomScalar E (d i)) : ∃ rnd : Rand, ∀ i, randomInZq E (rnd.bytes [i] 57) = d i := by
  choose f h1 h2 using h
  refine ⟨⟨fun site n => if n = 57 then (match site with | [i] => f i | _ => List.replicate 57 0) else List.replicate n 0, ?_⟩, fun i => ?_⟩
  · intro site n
    split
    · rename_i e
      subst e
      split
      · exact h1 _
      · rw [List.length_replicate]
    · rw [List.length_replicate]
  · simp only [if_true]
    exact h2 i

theorem random_draw {E : Env} (rnd : Rand) (i : Nat) : RandomScalar E (randomInZq E (rnd.bytes [i] 57)) :=
  ⟨_, rnd.length_bytes _ _, rfl⟩

theorem random_lt {E : Env} (hq : 0 < E.curve.q) {n : Nat} (h : RandomScalar E n) : n < E.curve.q := by
  obtain ⟨b, _, rfl⟩ := h
  exact Nat.mod_lt _ hq

/-! ## Making a signature -/

/-- The point from which the challenge is computed. -/
def commitment (E : Env) (A : Point) (c r : Nat) : Point := Point.add E.curve (Point.mul E.curve E.curve.G r) (Point.mul E.curve A c)

/-- The challenge that a signature must meet. -/
def challengeOf (E : Env) (A1 A2 A3 : Point) (m : Bytes) (s : RingSignature) : Nat :=
  ringChallenge E A1 A2 A3 (commitment E A1 s.c1 s.r1) (commitment E A2 s.c2 s.r2) (commitment E A3 s.c3 s.r3) m

/-- The signature that the holder of the first, second or third key makes, from the numbers drawn. -/
def made1 (E : Env) (sk : Nat) (A1 A2 A3 : Point) (m : Bytes) (d : Nat → Nat) : RingSignature :=
  let ch := ringChallenge E A1 A2 A3 (Point.mul E.curve E.curve.G (d 0)) (commitment E A2 (d 2) (d 5)) (commitment E A3 (d 3) (d 6)) m
  let c := modFloor ((ch : Int) - d 2 - d 3) E.curve.q
  ⟨c, modFloor ((d 0 : Int) - modFloor ((c : Int) * sk) E.curve.q) E.curve.q, d 2, d 5, d 3, d 6⟩
def made2 (E : Env) (sk : Nat) (A1 A2 A3 : Point) (m : Bytes) (d : Nat → Nat) : RingSignature :=
  let ch := ringChallenge E A1 A2 A3 (commitment E A1 (d 1) (d 4)) (Point.mul E.curve E.curve.G (d 0)) (commitment E A3 (d 3) (d 6)) m
  let c := modFloor ((ch : Int) - d 1 - d 3) E.curve.q
  ⟨d 1, d 4, c, modFloor ((d 0 : Int) - modFloor ((c : Int) * sk) E.curve.q) E.curve.q, d 3, d 6⟩
def made3 (E : Env) (sk : Nat) (A1 A2 A3 : Point) (m : Bytes) (d : Nat → Nat) : RingSignature :=
  let ch := ringChallenge E A1 A2 A3 (commitment E A1 (d 1) (d 4)) (commitment E A2 (d 2) (d 5)) (Point.mul E.curve E.curve.G (d 0)) m
  let c := modFloor ((ch : Int) - d 1 - d 2) E.curve.q
  ⟨d 1, d 4, d 2, d 5, c, modFloor ((d 0 : Int) - modFloor ((c : Int) * sk) E.curve.q) E.curve.q⟩

section
variable {E : Env} (hc : GoodCurve E.curve) {k : EdDSAKeyPair} (hk : k.pub = Point.mul E.curve E.curve.G k.sk) {A1 A2 A3 : Point}
  (h1 : GoodKey E.curve A1) (h2 : GoodKey E.curve A2) (h3 : GoodKey E.curve A3) (m : Bytes) (rnd : Rand)
include hc hk h1 h2 h3

theorem sign_cases : let d := fun i => randomInZq E (rnd.bytes [i] 57)
    RingSignature.sign E k A1 A2 A3 m rnd =
      if k.pub = A1 then
        if k.pub = A2 then .panic else if k.pub = A3 then .panic else .ok (made1 E k.sk A1 A2 A3 m d)
      else if k.pub = A2 then if k.pub = A3 then .panic else .ok (made2 E k.sk A1 A2 A3 m d)
      else if k.pub = A3 then .ok (made3 E k.sk A1 A2 A3 m d) else .panic := by
  intro d
  obtain ⟨g1, g2⟩ := mulG_good hc k.sk
  rw [← hk] at g1 g2
  unfold RingSignature.sign
  simp only [(verify_iff h1.on).mpr h1, (verify_iff h2.on).mpr h2, (verify_iff h3.on).mpr h3, Res.bind_ok,
    diffPoints_eq hc g1 h1.on g2 h1.order, diffPoints_eq hc g1 h2.on g2 h2.order,
    diffPoints_eq hc g1 h3.on g2 h3.order]
  have n1 : ((1 : UInt8) - 0).toNat = 1 := rfl
  have n0 : ((1 : UInt8) - 1).toNat = 0 := rfl
  by_cases e1 : k.pub = A1
  · by_cases e2 : k.pub = A2
    · by_cases e3 : k.pub = A3
      · simp only [if_pos e1, if_pos e2, if_pos e3, n1, Res.assert]; rfl
      · simp only [if_pos e1, if_pos e2, if_neg e3, n1, n0, Res.assert]; rfl
    · by_cases e3 : k.pub = A3
      · simp only [if_pos e1, if_neg e2, if_pos e3, n1, n0, Res.assert]; rfl
      · simp only [if_pos e1, if_neg e2, if_neg e3, n1, n0, Res.assert, decide_true, if_true, Res.bind_ok]
        simp only [Nat.zero_mul, Nat.sub_self, Nat.sub_zero, Nat.one_mul, Nat.zero_add, Nat.add_zero,
          com_other hc h2.on, com_other hc h3.on, com_signer hc h1.on]
        rfl
  · by_cases e2 : k.pub = A2
    · by_cases e3 : k.pub = A3
      · simp only [if_neg e1, if_pos e2, if_pos e3, n1, n0, Res.assert]; rfl
      · simp only [if_neg e1, if_pos e2, if_neg e3, n1, n0, Res.assert, decide_true, if_true, Res.bind_ok]
        simp only [Nat.zero_mul, Nat.sub_self, Nat.sub_zero, Nat.one_mul, Nat.zero_add, Nat.add_zero,
          com_other hc h1.on, com_other hc h3.on, com_signer hc h2.on]
        rfl
    · by_cases e3 : k.pub = A3
      · simp only [if_neg e1, if_neg e2, if_pos e3, n1, n0, Res.assert, decide_true, if_true, Res.bind_ok]
        simp only [Nat.zero_mul, Nat.sub_self, Nat.sub_zero, Nat.one_mul, Nat.zero_add, Nat.add_zero,
          com_other hc h1.on, com_other hc h2.on, com_signer hc h3.on]
        rfl
      · simp only [if_neg e1, if_neg e2, if_neg e3, n0, Res.assert]; rfl

/-- Who can make a signature. -/
theorem canMake_iff {s : RingSignature} : CanMake E k A1 A2 A3 m s ↔ ∃ d : Nat → Nat, (∀ i, RandomScalar E (d i)) ∧
    ((k.pub = A1 ∧ k.pub ≠ A2 ∧ k.pub ≠ A3 ∧ s = made1 E k.sk A1 A2 A3 m d) ∨
     (k.pub ≠ A1 ∧ k.pub = A2 ∧ k.pub ≠ A3 ∧ s = made2 E k.sk A1 A2 A3 m d) ∨
     (k.pub ≠ A1 ∧ k.pub ≠ A2 ∧ k.pub = A3 ∧ s = made3 E k.sk A1 A2 A3 m d)) := by
  constructor
  · rintro ⟨rnd, hs⟩
    refine ⟨_, random_draw rnd, ?_⟩
    rw [sign_cases hc hk h1 h2 h3] at hs
    split at hs
    · rename_i e1
      split at hs
      · cases hs
      rename_i e2
      split at hs
      · cases hs
      rename_i e3
      cases hs
      exact .inl ⟨e1, e2, e3, rfl⟩
    rename_i e1
    split at hs
    · rename_i e2
      split at hs
      · cases hs
      rename_i e3
      cases hs
      exact .inr (.inl ⟨e1, e2, e3, rfl⟩)
    rename_i e2
    split at hs
    · rename_i e3
      cases hs
      exact .inr (.inr ⟨e1, e2, e3, rfl⟩)
    · cases hs
  · rintro ⟨d, hd, h⟩
    obtain ⟨rnd, hr⟩ := rand_of d hd
    have hr : (fun i => randomInZq E (rnd.bytes [i] 57)) = d := funext hr
    refine ⟨rnd, ?_⟩
    rw [sign_cases hc hk h1 h2 h3, hr]
    rcases h with ⟨e1, e2, e3, rfl⟩ | ⟨e1, e2, e3, rfl⟩ | ⟨e1, e2, e3, rfl⟩
    · rw [if_pos e1, if_neg e2, if_neg e3]
    · rw [if_neg e1, if_pos e2, if_neg e3]
    · rw [if_neg e1, if_neg e2, if_pos e3]

end

theorem modFloor_eq {z : Int} {n q : Nat} (hn : n < q) (h : (q : Int) ∣ z - n) : modFloor z q = n := by
  have h1 : z % q = n := by
    rw [Int.emod_eq_emod_iff_emod_sub_eq_zero.mpr (Int.emod_eq_zero_of_dvd h)]
    exact Int.emod_eq_of_lt (by omega) (by omega)
  unfold modFloor
  rw [h1]
  rfl

theorem modFloor_dvd {z : Int} {q : Nat} (hq : 0 < q) : (q : Int) ∣ z - modFloor z q := by
  have h1 : ((modFloor z q : Nat) : Int) = z % q := by
    unfold modFloor
    exact Int.toNat_of_nonneg (Int.emod_nonneg _ (by omega))
  rw [h1]
  exact Int.dvd_self_sub_emod

open Edwards in
/-- The commitment to the holder's own numbers. -/
theorem commitment_own {E : Env} (hc : GoodCurve E.curve) {A : Point} {sk : Nat} (h : A = Point.mul E.curve E.curve.G sk) (c r : Nat) :
    commitment E A c r = Point.mul E.curve E.curve.G ((r + c * sk) % E.curve.q) := by
  have := Fact.mk hc.field.prime
  have := hc.field.good
  obtain ⟨G, hG⟩ := OnCurve.rep hc.base
  have hq : E.curve.q • G = 0 := (hG.mul E.curve.q).eq_iff rep_identity |>.mp hc.order
  subst h
  unfold commitment
  refine (((hG.mul _).add ((hG.mul _).mul _)).eq_iff (hG.mul _)).mpr ?_
  rw [nsmul_mod hq, add_smul, mul_smul]

theorem commitment_response {E : Env} (hc : GoodCurve E.curve) {A : Point} {sk : Nat} (h : A = Point.mul E.curve E.curve.G sk) (t c : Nat) :
    commitment E A c (modFloor ((t : Int) - modFloor ((c : Int) * sk) E.curve.q) E.curve.q) = Point.mul E.curve E.curve.G t :=
  response hc h t c

/-- The answer to the challenge, from the number drawn. -/
theorem response_eq {q r c sk : Nat} (hr : r < q) :
    modFloor ((((r + c * sk) % q : Nat) : Int) - modFloor ((c : Int) * sk) q) q = r := by
  have hq : 0 < q := by omega
  refine modFloor_eq hr ?_
  have h1 := modFloor_dvd (z := (c : Int) * sk) hq
  have h2 : (q : Int) ∣ ((r : Int) + c * sk) - (((r + c * sk) % q : Nat) : Int) := by
    push_cast
    exact Int.dvd_self_sub_emod
  have := Int.dvd_sub h1 h2
  refine (Int.dvd_neg.mp ?_)
  convert Int.dvd_sub h2 h1 using 1
  ring

theorem sum_back {q a b c ch : Nat} (ha : a < q) (h : ch = (a + b + c) % q) : modFloor ((ch : Int) - b - c) q = a := by
  have hq : 0 < q := by omega
  refine modFloor_eq ha ?_
  have h2 : (q : Int) ∣ ((a : Int) + b + c) - (((a + b + c) % q : Nat) : Int) := by
    push_cast
    exact Int.dvd_self_sub_emod
  rw [← h] at h2
  refine (Int.dvd_neg.mp ?_)
  convert h2 using 1
  ring

section
variable {E : Env} (hc : GoodCurve E.curve) {k : EdDSAKeyPair} (hk : k.pub = Point.mul E.curve E.curve.G k.sk) {A1 A2 A3 : Point}
  (h1 : GoodKey E.curve A1) (h2 : GoodKey E.curve A2) (h3 : GoodKey E.curve A3) {m : Bytes} {s : RingSignature}
include hc hk h1 h2 h3

/-- What holds of a signature that was made. -/
theorem made_valid (hs : CanMake E k A1 A2 A3 m s) : challengeOf E A1 A2 A3 m s = (s.c1 + s.c2 + s.c3) % E.curve.q ∧
    s.c1 < E.curve.q ∧ s.r1 < E.curve.q ∧ s.c2 < E.curve.q ∧ s.r2 < E.curve.q ∧ s.c3 < E.curve.q ∧ s.r3 < E.curve.q := by
  have hq : 0 < E.curve.q := by have := hc.big; omega
  obtain ⟨d, hd, h⟩ := (canMake_iff hc hk h1 h2 h3 m).mp hs
  have lt := fun i => random_lt hq (hd i)
  have ml : ∀ z, modFloor z E.curve.q < E.curve.q := modFloor_lt hq
  rcases h with ⟨e1, _, _, rfl⟩ | ⟨_, e2, _, rfl⟩ | ⟨_, _, e3, rfl⟩
  · refine ⟨?_, ml _, ml _, lt 2, lt 5, lt 3, lt 6⟩
    unfold challengeOf made1
    rw [commitment_response hc (e1.symm.trans hk), sum_mod1 hq (ringChallenge_lt hq ..)]
  · refine ⟨?_, lt 1, lt 4, ml _, ml _, lt 3, lt 6⟩
    unfold challengeOf made2
    rw [commitment_response hc (e2.symm.trans hk), sum_mod2 hq (ringChallenge_lt hq ..)]
  · refine ⟨?_, lt 1, lt 4, lt 2, lt 5, ml _, ml _⟩
    unfold challengeOf made3
    rw [commitment_response hc (e3.symm.trans hk), sum_mod3 hq (ringChallenge_lt hq ..)]

/-- A signature that meets its challenge can be made by the holder of the key at a place of the ring, if the numbers at the other places
can be drawn, and the number that is committed to. -/
theorem make_valid (hv : challengeOf E A1 A2 A3 m s = (s.c1 + s.c2 + s.c3) % E.curve.q)
    (hlt : s.c1 < E.curve.q ∧ s.r1 < E.curve.q ∧ s.c2 < E.curve.q ∧ s.r2 < E.curve.q ∧ s.c3 < E.curve.q ∧ s.r3 < E.curve.q)
    (hone : [A1, A2, A3].count k.pub = 1)
    (hp : ∀ p ∈ parts A1 A2 A3 s, if p.1 = k.pub then RandomScalar E ((p.2.2 + p.2.1 * k.sk) % E.curve.q)
      else RandomScalar E p.2.1 ∧ RandomScalar E p.2.2) : CanMake E k A1 A2 A3 m s := by
  obtain ⟨l1, l2, l3, l4, l5, l6⟩ := hlt
  simp only [parts, List.mem_cons, List.not_mem_nil, or_false, forall_eq_or_imp, forall_eq] at hp
  obtain ⟨p1, p2, p3⟩ := hp
  have hone : (k.pub = A1 ∧ k.pub ≠ A2 ∧ k.pub ≠ A3) ∨ (k.pub ≠ A1 ∧ k.pub = A2 ∧ k.pub ≠ A3) ∨
      (k.pub ≠ A1 ∧ k.pub ≠ A2 ∧ k.pub = A3) := by
    generalize k.pub = K at hone ⊢
    simp only [List.count_cons, List.count_nil, beq_iff_eq, @eq_comm _ _ K] at hone
    by_cases e1 : K = A1 <;> by_cases e2 : K = A2 <;> by_cases e3 : K = A3 <;>
      simp only [e1, e2, e3, if_true, if_false] at hone <;> simp_all
  rw [canMake_iff hc hk h1 h2 h3]
  rcases hone with ⟨e1, e2, e3⟩ | ⟨e1, e2, e3⟩ | ⟨e1, e2, e3⟩
  · rw [if_pos e1.symm] at p1
    rw [if_neg (Ne.symm e2)] at p2
    rw [if_neg (Ne.symm e3)] at p3
    refine ⟨fun i => if i = 2 then s.c2 else if i = 5 then s.r2 else if i = 3 then s.c3 else if i = 6 then s.r3 else
      (s.r1 + s.c1 * k.sk) % E.curve.q, ?_, .inl ⟨e1, e2, e3, ?_⟩⟩
    · intro i
      dsimp only
      repeat' split
      exacts [p2.1, p2.2, p3.1, p3.2, p1]
    · unfold made1
      norm_num only [if_true, if_false]
      rw [← commitment_own hc (e1.symm.trans hk)]
      have : ringChallenge E A1 A2 A3 (commitment E A1 s.c1 s.r1) (commitment E A2 s.c2 s.r2) (commitment E A3 s.c3 s.r3) m = _ := hv
      rw [sum_back l1 this, response_eq l2]
  · rw [if_neg (Ne.symm e1)] at p1
    rw [if_pos e2.symm] at p2
    rw [if_neg (Ne.symm e3)] at p3
    refine ⟨fun i => if i = 1 then s.c1 else if i = 4 then s.r1 else if i = 3 then s.c3 else if i = 6 then s.r3 else
      (s.r2 + s.c2 * k.sk) % E.curve.q, ?_, .inr (.inl ⟨e1, e2, e3, ?_⟩)⟩
    · intro i
      dsimp only
      repeat' split
      exacts [p1.1, p1.2, p3.1, p3.2, p2]
    · unfold made2
      norm_num only [if_true, if_false]
      rw [← commitment_own hc (e2.symm.trans hk)]
      have : ringChallenge E A1 A2 A3 (commitment E A1 s.c1 s.r1) (commitment E A2 s.c2 s.r2) (commitment E A3 s.c3 s.r3) m = _ := hv
      rw [Nat.add_comm s.c1] at this
      rw [sum_back l3 this, response_eq l4]
  · rw [if_neg (Ne.symm e1)] at p1
    rw [if_neg (Ne.symm e2)] at p2
    rw [if_pos e3.symm] at p3
    refine ⟨fun i => if i = 1 then s.c1 else if i = 4 then s.r1 else if i = 2 then s.c2 else if i = 5 then s.r2 else
      (s.r3 + s.c3 * k.sk) % E.curve.q, ?_, .inr (.inr ⟨e1, e2, e3, ?_⟩)⟩
    · intro i
      dsimp only
      repeat' split
      exacts [p1.1, p1.2, p2.1, p2.2, p3]
    · unfold made3
      norm_num only [if_true, if_false]
      rw [← commitment_own hc (e3.symm.trans hk)]
      have : ringChallenge E A1 A2 A3 (commitment E A1 s.c1 s.r1) (commitment E A2 s.c2 s.r2) (commitment E A3 s.c3 s.r3) m = _ := hv
      rw [Nat.add_comm (s.c1 + s.c2), ← Nat.add_assoc] at this
      rw [sum_back l5 this, response_eq l6]

end

end Otrr
