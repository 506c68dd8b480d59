import Verif.Lemmas.Point
import Verif.Lemmas.Edwards
/-! The point arithmetic of the model computes in the group of the curve. -/

namespace Otrr

open Spec Edwards

theorem egcdLoop_spec {m : Nat} (a : Int) (n r0 r1 : Nat) (s0 s1 : Int) (hn : r1 < n)
    (h0 : (s0 * a : ZMod m) = r0) (h1 : (s1 * a : ZMod m) = r1) :
    (egcdLoop n r0 r1 s0 s1).1 = Nat.gcd r0 r1 ∧
      ((egcdLoop n r0 r1 s0 s1).2 * a : ZMod m) = ((egcdLoop n r0 r1 s0 s1).1 : Nat) := by
  induction n generalizing r0 r1 s0 s1 with
  | zero => omega
  | succ n ih =>
    rw [egcdLoop]
    split
    · rename_i h
      subst h
      exact ⟨(Nat.gcd_zero_right r0).symm, h0⟩
    · rename_i h
      have hlt : r0 % r1 < r1 := Nat.mod_lt _ (by omega)
      obtain ⟨e1, e2⟩ := ih r1 (r0 % r1) s1 (s0 - (r0 / r1 : Nat) * s1) (by omega) h1 (by
        have := Nat.div_add_mod r0 r1
        have hc : ((r1 * (r0 / r1) + r0 % r1 : Nat) : ZMod m) = r0 := by rw [this]
        generalize r0 / r1 = t at hc ⊢
        push_cast at hc ⊢
        linear_combination h0 - (t : ZMod m) * h1 - hc)
      refine ⟨?_, e2⟩
      rw [e1, Nat.gcd_comm r0 r1, Nat.gcd_rec r1 r0, Nat.gcd_comm]

theorem modInverse_spec {p : Nat} (hp : Nat.Prime p) (a : Int) (h : (a : ZMod p) ≠ 0) :
    ∃ r, modInverse a p = some r ∧ (r : ZMod p) * a = 1 := by
  have := Fact.mk hp
  have hlt := modFloor_lt hp.pos a
  obtain ⟨e1, e2⟩ := egcdLoop_spec (m := p) a (p + 1) p (modFloor a p) 0 1 (by omega) (by simp)
    (by rw [modFloor_cast hp.pos]; simp)
  have hg : Nat.gcd p (modFloor a p) = 1 := by
    apply (Nat.Prime.coprime_iff_not_dvd hp).mpr
    intro hd
    apply h
    rw [← modFloor_cast hp.pos]
    exact (ZMod.natCast_eq_zero_iff _ _).mpr hd
  unfold modInverse
  rw [e1, hg] at e2
  simp only [e1, hg, if_true]
  refine ⟨_, rfl, ?_⟩
  rw [modFloor_cast hp.pos, e2]
  simp

theorem Spec.GoodField.good {c : Curve} [Fact (Nat.Prime c.p)] (h : GoodField c) :
    Good ((c.d : Int) : ZMod c.p) where
  nonsq := h.nonsq
  two := by
    have h4 := h.mod4
    intro e
    have e' : ((2 : Nat) : ZMod c.p) = 0 := by exact_mod_cast e
    have := (ZMod.natCast_eq_zero_iff 2 c.p).mp e'
    have := Nat.le_of_dvd (by decide) this
    omega

section
variable {c : Curve} [hf : Fact (Nat.Prime c.p)] [hg : Good ((c.d : Int) : ZMod c.p)]

/-- The coordinates of `P` are those of the group element `A`; not necessarily reduced. -/
def Coord (P : Point) (A : Pt ((c.d : Int) : ZMod c.p)) : Prop := (P.x : ZMod c.p) = A.x ∧ (P.y : ZMod c.p) = A.y

/-- `P` is the reduced form of the group element `A`. -/
def Rep (P : Point) (A : Pt ((c.d : Int) : ZMod c.p)) : Prop := P.x < c.p ∧ P.y < c.p ∧ Coord P A

omit hg in
theorem OnCurve.rep {P : Point} (h : OnCurve c P) : ∃ A : Pt ((c.d : Int) : ZMod c.p), Rep P A := by
  obtain ⟨h1, h2, h3⟩ := onCurve_iff.mp h
  exact ⟨⟨P.x, P.y, h3⟩, h1, h2, rfl, rfl⟩

omit hg in
theorem Rep.onCurve {P : Point} {A : Pt ((c.d : Int) : ZMod c.p)} (h : Rep P A) : OnCurve c P := by
  obtain ⟨h1, h2, h3, h4⟩ := h
  exact onCurve_iff.mpr ⟨h1, h2, by rw [h3, h4]; exact A.on⟩

omit hg in
theorem Rep.eq_iff {P Q : Point} {A B : Pt ((c.d : Int) : ZMod c.p)} (hP : Rep P A) (hQ : Rep Q B) :
    P = Q ↔ A = B := by
  obtain ⟨h1, h2, h3, h4⟩ := hP
  obtain ⟨k1, k2, k3, k4⟩ := hQ
  constructor
  · rintro rfl
    ext
    · rw [← h3, ← k3]
    · rw [← h4, ← k4]
  · rintro rfl
    cases P; cases Q
    simp only [Point.mk.injEq]
    exact ⟨Nat.cast_inj_of_lt h1 k1 (h3.trans k3.symm), Nat.cast_inj_of_lt h2 k2 (h4.trans k4.symm)⟩

omit hg in
theorem rep_identity : Rep (c := c) Point.identity 0 := by
  have := hf.out.two_le
  refine ⟨?_, ?_, ?_, ?_⟩
  · simp only [Point.identity]; omega
  · simp only [Point.identity]; omega
  · simp [Point.identity, zero_x]
  · simp [Point.identity, zero_y]

theorem Point.isIdentity_iff {P : Point} : P.isIdentity = true ↔ P = Point.identity := by
  cases P
  simp [Point.isIdentity, Point.identity]

omit hg in
theorem Rep.isIdentity {P : Point} {A : Pt ((c.d : Int) : ZMod c.p)} (h : Rep P A) :
    P.isIdentity = true ↔ A = 0 := by
  rw [Point.isIdentity_iff]
  exact h.eq_iff rep_identity

omit hg in
theorem cross_cast {P Q : Point} {A B : Pt ((c.d : Int) : ZMod c.p)} (hP : Coord P A) (hQ : Coord Q B) :
    ((Point.cross c P Q : Int) : ZMod c.p) = ((c.d : Int) : ZMod c.p) * A.x * B.x * A.y * B.y := by
  unfold Point.cross
  push_cast
  rw [hP.1, hP.2, hQ.1, hQ.2]

/-- The inverses computed by the addition formulas exist. -/
theorem add_inverses {P Q : Point} {A B : Pt ((c.d : Int) : ZMod c.p)} (hP : Coord P A) (hQ : Coord Q B) :
    (∃ r, modInverse (1 + Point.cross c P Q) c.p = some r ∧
      (r : ZMod c.p) * (1 + ((c.d : Int) : ZMod c.p) * A.x * B.x * A.y * B.y) = 1) ∧
    (∃ r, modInverse (1 - Point.cross c P Q) c.p = some r ∧
      (r : ZMod c.p) * (1 - ((c.d : Int) : ZMod c.p) * A.x * B.x * A.y * B.y) = 1) := by
  have h1 := one_add_ne hg A.on B.on
  have h2 := one_sub_ne hg A.on B.on
  constructor
  · obtain ⟨r, e1, e2⟩ := modInverse_spec hf.out (1 + Point.cross c P Q)
      (by push_cast; rw [cross_cast hP hQ]; exact h1)
    refine ⟨r, e1, ?_⟩
    push_cast at e2
    rwa [cross_cast hP hQ] at e2
  · obtain ⟨r, e1, e2⟩ := modInverse_spec hf.out (1 - Point.cross c P Q)
      (by push_cast; rw [cross_cast hP hQ]; exact h2)
    refine ⟨r, e1, ?_⟩
    push_cast at e2
    rwa [cross_cast hP hQ] at e2

/-- The `unwrap`s in the addition of points on the curve succeed. -/
theorem Coord.addDefined {P Q : Point} {A B : Pt ((c.d : Int) : ZMod c.p)} (hP : Coord P A) (hQ : Coord Q B) :
    Point.addDefined c P Q = true := by
  obtain ⟨⟨r, e1, -⟩, ⟨r', e1', -⟩⟩ := add_inverses hP hQ
  simp [Point.addDefined, e1, e1']

theorem Coord.add {P Q : Point} {A B : Pt ((c.d : Int) : ZMod c.p)} (hP : Coord P A) (hQ : Coord Q B) :
    Coord (Point.add c P Q) (A + B) := by
  have h1 := one_add_ne hg A.on B.on
  have h2 := one_sub_ne hg A.on B.on
  unfold Point.add
  split
  · rename_i h
    have : A = 0 := by
      rw [Point.isIdentity_iff] at h
      subst h
      ext
      · rw [← hP.1]; simp [Point.identity, zero_x]
      · rw [← hP.2]; simp [Point.identity, zero_y]
    rw [this, zero_add]
    exact hQ
  · split
    · rename_i h
      have : B = 0 := by
        rw [Point.isIdentity_iff] at h
        subst h
        ext
        · rw [← hQ.1]; simp [Point.identity, zero_x]
        · rw [← hQ.2]; simp [Point.identity, zero_y]
      rw [this, add_zero]
      exact hP
    · obtain ⟨⟨r, e1, e2⟩, ⟨r', e1', e2'⟩⟩ := add_inverses hP hQ
      rw [e1, e1']
      constructor
      · simp only [Option.getD_some]
        rw [modFloor_cast hf.out.pos, add_x]
        push_cast
        rw [hP.1, hP.2, hQ.1, hQ.2, eq_div_iff h1, mul_assoc, e2, mul_one]
      · simp only [Option.getD_some]
        rw [modFloor_cast hf.out.pos, add_y]
        push_cast
        rw [hP.1, hP.2, hQ.1, hQ.2, eq_div_iff h2, mul_assoc, e2', mul_one]

omit hg in
theorem add_lt {P Q : Point} (h1 : P.x < c.p) (h2 : P.y < c.p) (h3 : Q.x < c.p) (h4 : Q.y < c.p) :
    (Point.add c P Q).x < c.p ∧ (Point.add c P Q).y < c.p := by
  unfold Point.add
  split
  · exact ⟨h3, h4⟩
  · split
    · exact ⟨h1, h2⟩
    · simp only
      exact ⟨modFloor_lt hf.out.pos _, modFloor_lt hf.out.pos _⟩

theorem Rep.add {P Q : Point} {A B : Pt ((c.d : Int) : ZMod c.p)} (hP : Rep P A) (hQ : Rep Q B) :
    Rep (Point.add c P Q) (A + B) := by
  obtain ⟨a, b⟩ := add_lt hP.1 hP.2.1 hQ.1 hQ.2.1
  exact ⟨a, b, hP.2.2.add hQ.2.2⟩

theorem mulLoop_rep {n s : Nat} {R T : Point} {A B : Pt ((c.d : Int) : ZMod c.p)} (hs : s < 2 ^ n)
    (hR : Rep R A) (hT : Rep T B) : Rep (Point.mulLoop c n s R T) (A + s • B) := by
  induction n generalizing s R T A B with
  | zero =>
    have : s = 0 := by simpa using hs
    subst this
    simpa [Point.mulLoop] using hR
  | succ n ih =>
    rw [Point.mulLoop]
    have hs2 : s / 2 < 2 ^ n := by rw [Nat.pow_succ] at hs; omega
    have e : s • B = (s % 2) • B + (s / 2) • (B + B) := by
      conv_lhs => rw [← Nat.mod_add_div s 2]
      rw [add_smul, mul_comm, mul_smul, two_smul]
    rw [e, ← add_assoc]
    by_cases h : s % 2 = 1
    · rw [if_pos h, h, one_smul]
      exact ih hs2 (hR.add hT) (hT.add hT)
    · rw [if_neg h]
      have h0 : s % 2 = 0 := by omega
      rw [h0, zero_smul, add_zero]
      exact ih hs2 hR (hT.add hT)

theorem lt_two_pow_bits (s : Nat) : s < 2 ^ bits s := by
  unfold bits
  split
  · rename_i h; subst h; decide
  · exact Nat.lt_log2_self

theorem Rep.mul {P : Point} {A : Pt ((c.d : Int) : ZMod c.p)} (hP : Rep P A) (s : Nat) :
    Rep (Point.mul c P s) (s • A) := by
  have := mulLoop_rep (lt_two_pow_bits s) rep_identity hP
  rwa [zero_add] at this

omit hg in
theorem Coord.neg {P : Point} {A : Pt ((c.d : Int) : ZMod c.p)} (hP : Coord P A) (hx : P.x ≤ c.p) :
    Coord (Point.neg c P) (-A) := by
  constructor
  · simp only [Point.neg]
    rw [Nat.cast_sub hx, hP.1, neg_x]
    simp
  · simp only [Point.neg, neg_y]
    exact hP.2

end

end Otrr
