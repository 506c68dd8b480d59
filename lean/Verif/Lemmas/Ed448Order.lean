import Verif.Lemmas.Ed448Group
import Verif.Lemmas.PrimeP
/-! The base point of Ed448 has order dividing `Q`: computed in projective coordinates, by the kernel. -/

namespace Otrr

open Spec Edwards

/-- Projective coordinates. -/
structure Proj where
  X : Int
  Y : Int
  Z : Int
  deriving DecidableEq

/-- Projective addition. -/
def Proj.add (p d : Int) (a b : Proj) : Proj :=
  let A := a.Z * b.Z % p
  let B := A * A % p
  let C := a.X * b.X % p
  let D := a.Y * b.Y % p
  let E := d * C % p * D % p
  let F := (B - E) % p
  let G := (B + E) % p
  ⟨A * F % p * ((a.X + a.Y) * (b.X + b.Y) - C - D) % p, A * G % p * (D - C) % p, F * G % p⟩

/-- Double and add. -/
def Proj.mulLoop (p d : Int) : Nat → Nat → Proj → Proj → Proj
  | 0, _, r, _ => r
  | n + 1, s, r, t =>
    bif Nat.beq (s % 2) 1 then mulLoop p d n (s / 2) (add p d r t) (add p d t t)
    else mulLoop p d n (s / 2) r (add p d t t)

section
variable {c : Curve} [hf : Fact (Nat.Prime c.p)] [hg : Good ((c.d : Int) : ZMod c.p)]

/-- `a` are projective coordinates of `A`. -/
def PRep (a : Proj) (A : Pt ((c.d : Int) : ZMod c.p)) : Prop :=
  (a.Z : ZMod c.p) ≠ 0 ∧ (a.X : ZMod c.p) = A.x * a.Z ∧ (a.Y : ZMod c.p) = A.y * a.Z

theorem PRep.add {a b : Proj} {A B : Pt ((c.d : Int) : ZMod c.p)} (ha : PRep a A) (hb : PRep b B) :
    PRep (Proj.add c.p c.d a b) (A + B) := by
  obtain ⟨a1, a2, a3⟩ := ha
  obtain ⟨b1, b2, b3⟩ := hb
  have h1 := one_add_ne hg A.on B.on
  have h2 := one_sub_ne hg A.on B.on
  have hF : ((Proj.add c.p c.d a b).Z : ZMod c.p) =
      (a.Z * b.Z) ^ 4 * (1 - ((c.d : Int) : ZMod c.p) * A.x * B.x * A.y * B.y) *
        (1 + ((c.d : Int) : ZMod c.p) * A.x * B.x * A.y * B.y) := by
    simp only [Proj.add, ZMod.intCast_mod, Int.cast_mul, Int.cast_sub, Int.cast_add]
    rw [a2, a3, b2, b3]
    ring
  refine ⟨?_, ?_, ?_⟩
  · rw [hF]
    exact mul_ne_zero (mul_ne_zero (pow_ne_zero _ (mul_ne_zero a1 b1)) h2) h1
  · rw [hF, add_x, div_mul_eq_mul_div, eq_div_iff h1]
    simp only [Proj.add, ZMod.intCast_mod, Int.cast_mul, Int.cast_sub, Int.cast_add]
    rw [a2, a3, b2, b3]
    ring
  · rw [hF, add_y, div_mul_eq_mul_div, eq_div_iff h2]
    simp only [Proj.add, ZMod.intCast_mod, Int.cast_mul, Int.cast_sub, Int.cast_add]
    rw [a2, a3, b2, b3]
    ring

theorem PRep.mulLoop {n s : Nat} {r t : Proj} {A B : Pt ((c.d : Int) : ZMod c.p)} (hs : s < 2 ^ n)
    (hR : PRep r A) (hT : PRep t B) : PRep (Proj.mulLoop c.p c.d n s r t) (A + s • B) := by
  induction n generalizing s r t A B with
  | zero =>
    have : s = 0 := by simpa using hs
    subst this
    simpa [Proj.mulLoop] using hR
  | succ n ih =>
    rw [Proj.mulLoop]
    have hs2 : s / 2 < 2 ^ n := by rw [Nat.pow_succ] at hs; omega
    have e : s • B = (s % 2) • B + (s / 2) • (B + B) := by
      conv_lhs => rw [← Nat.mod_add_div s 2]
      rw [add_smul, mul_comm, mul_smul, two_smul]
    rw [e, ← add_assoc]
    by_cases h : s % 2 = 1
    · rw [h, one_smul]
      exact ih hs2 (hR.add hT) (hT.add hT)
    · have h0 : s % 2 = 0 := by omega
      rw [h0, zero_smul, add_zero]
      exact ih hs2 hR (hT.add hT)

theorem order_of_proj {n : Nat} {A : Pt ((c.d : Int) : ZMod c.p)} (s x y : Nat) (hA : Coord ⟨x, y⟩ A) (hs : s < 2 ^ n)
    (h : (Proj.mulLoop c.p c.d n s ⟨0, 1, 1⟩ ⟨x, y, 1⟩).X = 0 ∧
      (Proj.mulLoop c.p c.d n s ⟨0, 1, 1⟩ ⟨x, y, 1⟩).Y = (Proj.mulLoop c.p c.d n s ⟨0, 1, 1⟩ ⟨x, y, 1⟩).Z) :
    s • A = 0 := by
  have h1 : PRep (c := c) ⟨0, 1, 1⟩ 0 := by
    refine ⟨by simp, ?_, ?_⟩ <;> simp [zero_x, zero_y]
  have h2 : PRep (c := c) ⟨x, y, 1⟩ A := by
    refine ⟨by simp, ?_, ?_⟩
    · simpa using hA.1
    · simpa using hA.2
  obtain ⟨e1, e2, e3⟩ := PRep.mulLoop hs h1 h2
  rw [zero_add] at e2 e3
  rw [h.1] at e2
  rw [h.2] at e3
  ext
  · rw [zero_x]
    rw [Int.cast_zero] at e2
    exact (mul_eq_zero.mp e2.symm).resolve_right e1
  · rw [zero_y]
    have : ((s • A).y - 1) * ((Proj.mulLoop c.p c.d n s ⟨0, 1, 1⟩ ⟨x, y, 1⟩).Z : ZMod c.p) = 0 := by
      linear_combination -e3
    exact sub_eq_zero.mp ((mul_eq_zero.mp this).resolve_right e1)

end

/-- The base point is on the curve. -/
theorem ed448_base : OnCurve ed448 ed448.G := ⟨by decide +kernel, by decide +kernel, by decide +kernel⟩

theorem ed448_proj : (Proj.mulLoop ed448.p ed448.d 446 ed448.q ⟨0, 1, 1⟩ ⟨ed448.G.x, ed448.G.y, 1⟩).X = 0 ∧
    (Proj.mulLoop ed448.p ed448.d 446 ed448.q ⟨0, 1, 1⟩ ⟨ed448.G.x, ed448.G.y, 1⟩).Y =
      (Proj.mulLoop ed448.p ed448.d 446 ed448.q ⟨0, 1, 1⟩ ⟨ed448.G.x, ed448.G.y, 1⟩).Z := by
  decide +kernel

theorem ed448_q_lt : ed448.q < 2 ^ 446 := by decide +kernel

/-- `Q` times the base point is the identity. -/
theorem ed448_order : Point.mul ed448 ed448.G ed448.q = Point.identity := by
  have := Fact.mk ed448_goodField.prime
  have := ed448_goodField.good
  obtain ⟨A, hA⟩ := OnCurve.rep ed448_base
  have h := order_of_proj (n := 446) ed448.q ed448.G.x ed448.G.y hA.2.2 ed448_q_lt ed448_proj
  have h2 := hA.mul ed448.q
  rw [h] at h2
  exact (h2.eq_iff rep_identity).mpr rfl

end Otrr
