import Verif.Lemmas.EdwardsPoly
import Mathlib.Tactic.FieldSimp
import Mathlib.Algebra.Field.Basic
/-! The group of points of the Edwards curve x^2 + y^2 = 1 + d x^2 y^2 with `d` not a square. -/

namespace Otrr.Edwards

variable {K : Type*} [Field K]

/-- `d` is not a square and the characteristic is not two. -/
class Good (d : K) : Prop where
  nonsq : ∀ r : K, r ^ 2 ≠ d
  two : (2 : K) ≠ 0

/-- Points of the curve. -/
@[ext] structure Pt (d : K) where
  x : K
  y : K
  on : x ^ 2 + y ^ 2 = 1 + d * x ^ 2 * y ^ 2

/-- Completeness of the addition law. -/
theorem eps_sq_ne {d : K} (hg : Good d) {x1 y1 x2 y2 e : K} (h1 : x1 ^ 2 + y1 ^ 2 = 1 + d * x1 ^ 2 * y1 ^ 2)
    (h2 : x2 ^ 2 + y2 ^ 2 = 1 + d * x2 ^ 2 * y2 ^ 2) (he : e = d * x1 * x2 * y1 * y2) : e ^ 2 ≠ 1 := by
  intro hee
  have hne : x1 * y1 ≠ 0 := by
    intro h0
    have : e = 0 := by rw [he]; linear_combination d * x2 * y2 * h0
    rw [this] at hee
    simp at hee
  have k1 : (x1 + e * y1) ^ 2 = d * (x1 * y1 * (x2 + y2)) ^ 2 := by
    rw [he] at hee ⊢
    linear_combination h1 - d * x1 ^ 2 * y1 ^ 2 * h2 + (y1 ^ 2 - 1) * hee
  have k2 : (x1 - e * y1) ^ 2 = d * (x1 * y1 * (x2 - y2)) ^ 2 := by
    rw [he] at hee ⊢
    linear_combination h1 - d * x1 ^ 2 * y1 ^ 2 * h2 + (y1 ^ 2 - 1) * hee
  have key : ∀ a b : K, b ≠ 0 → a ^ 2 = d * (x1 * y1 * b) ^ 2 → False := by
    intro a b hb h
    apply hg.nonsq (a / (x1 * y1 * b))
    have : (x1 * y1 * b) ≠ 0 := mul_ne_zero hne hb
    rw [div_pow, div_eq_iff (pow_ne_zero _ this), h]
  by_cases hs : x2 + y2 = 0
  · by_cases ht : x2 - y2 = 0
    · have hx : x2 = 0 := by
        have : 2 * x2 = 0 := by linear_combination hs + ht
        exact (mul_eq_zero.mp this).resolve_left hg.two
      have hy : y2 = 0 := by rw [hx] at hs; simpa using hs
      rw [hx, hy] at h2
      simp at h2
    · exact key _ _ ht k2
  · exact key _ _ hs k1

theorem one_add_ne {d : K} (hg : Good d) {x1 y1 x2 y2 : K} (h1 : x1 ^ 2 + y1 ^ 2 = 1 + d * x1 ^ 2 * y1 ^ 2)
    (h2 : x2 ^ 2 + y2 ^ 2 = 1 + d * x2 ^ 2 * y2 ^ 2) : 1 + d * x1 * x2 * y1 * y2 ≠ 0 := by
  intro h
  apply eps_sq_ne hg h1 h2 rfl
  linear_combination (d * x1 * x2 * y1 * y2 - 1) * h

theorem one_sub_ne {d : K} (hg : Good d) {x1 y1 x2 y2 : K} (h1 : x1 ^ 2 + y1 ^ 2 = 1 + d * x1 ^ 2 * y1 ^ 2)
    (h2 : x2 ^ 2 + y2 ^ 2 = 1 + d * x2 ^ 2 * y2 ^ 2) : 1 - d * x1 * x2 * y1 * y2 ≠ 0 := by
  intro h
  apply eps_sq_ne hg h1 h2 rfl
  linear_combination (-d * x1 * x2 * y1 * y2 - 1) * h

theorem closure {d : K} (hg : Good d) {x1 y1 x2 y2 : K} (h1 : x1 ^ 2 + y1 ^ 2 = 1 + d * x1 ^ 2 * y1 ^ 2)
    (h2 : x2 ^ 2 + y2 ^ 2 = 1 + d * x2 ^ 2 * y2 ^ 2) :
    ((x1 * y2 + y1 * x2) / (1 + d * x1 * x2 * y1 * y2)) ^ 2 + ((y1 * y2 - x1 * x2) / (1 - d * x1 * x2 * y1 * y2)) ^ 2 =
      1 + d * ((x1 * y2 + y1 * x2) / (1 + d * x1 * x2 * y1 * y2)) ^ 2 *
        ((y1 * y2 - x1 * x2) / (1 - d * x1 * x2 * y1 * y2)) ^ 2 := by
  have ha := one_add_ne hg h1 h2
  have hb := one_sub_ne hg h1 h2
  have key : (x1*y2 + y1*x2)^2 * (1 - d*x1*x2*y1*y2)^2 + (y1*y2 - x1*x2)^2 * (1 + d*x1*x2*y1*y2)^2 =
      (1 + d*x1*x2*y1*y2)^2 * (1 - d*x1*x2*y1*y2)^2 + d * (x1*y2 + y1*x2)^2 * (y1*y2 - x1*x2)^2 := by
    linear_combination
      (y2^4 + 4*x2^2*y2^2 + (-2*x2^2*y2^2*d) + (-2*x2^2*y2^4) + x2^4 + (-2*x2^4*y2^2) + 2*x2^4*y2^4*d + (-1*x2^4*y2^4*d^2) + (-1*y1^2*x2^2*y2^4*d) + (-1*y1^2*x2^4*y2^2*d) + y1^2*x2^4*y2^4*d^2 + (-1*x1^2*x2^2*y2^4*d) + (-1*x1^2*x2^4*y2^2*d) + x1^2*x2^4*y2^4*d^2 + x1^2*y1^2*x2^4*y2^4*d^3) * h1 +
      (1 + y2^2 + x2^2 + (-2*x2^2*y2^2) + x2^2*y2^2*d + (-1*y1^2*y2^2) + (-1*y1^2*x2^2) + 2*y1^2*x2^2*y2^2 + (-2*y1^2*x2^2*y2^2*d) + y1^4*x2^2*y2^2*d + (-1*x1^2*y2^2) + (-1*x1^2*x2^2) + 2*x1^2*x2^2*y2^2 + (-2*x1^2*x2^2*y2^2*d) + x1^4*x2^2*y2^2*d) * h2
  generalize x1 * y2 + y1 * x2 = a at *
  generalize y1 * y2 - x1 * x2 = b at *
  generalize 1 + d * x1 * x2 * y1 * y2 = u at *
  generalize 1 - d * x1 * x2 * y1 * y2 = v at *
  field_simp
  linear_combination key

instance (d : K) [hg : Good d] : Add (Pt d) where
  add P Q := ⟨(P.x * Q.y + P.y * Q.x) / (1 + d * P.x * Q.x * P.y * Q.y),
    (P.y * Q.y - P.x * Q.x) / (1 - d * P.x * Q.x * P.y * Q.y), closure hg P.on Q.on⟩

instance (d : K) : Zero (Pt d) where
  zero := ⟨0, 1, by ring⟩

instance (d : K) : Neg (Pt d) where
  neg P := ⟨-P.x, P.y, by have := P.on; linear_combination this⟩

section
variable {d : K} [hg : Good d]

theorem add_x (P Q : Pt d) : (P + Q).x = (P.x * Q.y + P.y * Q.x) / (1 + d * P.x * Q.x * P.y * Q.y) := rfl
theorem add_y (P Q : Pt d) : (P + Q).y = (P.y * Q.y - P.x * Q.x) / (1 - d * P.x * Q.x * P.y * Q.y) := rfl
omit hg in
theorem zero_x : (0 : Pt d).x = 0 := rfl
omit hg in
theorem zero_y : (0 : Pt d).y = 1 := rfl
omit hg in
theorem neg_x (P : Pt d) : (-P).x = -P.x := rfl
omit hg in
theorem neg_y (P : Pt d) : (-P).y = P.y := rfl

theorem add_comm' (P Q : Pt d) : P + Q = Q + P := by
  ext
  · simp only [add_x]; congr 1 <;> ring
  · simp only [add_y]; congr 1 <;> ring

theorem zero_add' (P : Pt d) : 0 + P = P := by
  ext
  · simp only [add_x, zero_x, zero_y]; simp
  · simp only [add_y, zero_x, zero_y]; simp

theorem neg_add' (P : Pt d) : -P + P = 0 := by
  ext
  · simp only [add_x, neg_x, neg_y, zero_x]
    rw [show -P.x * P.y + P.y * P.x = 0 by ring, zero_div]
  · have h := one_sub_ne hg (-P).on P.on
    simp only [add_y, neg_x, neg_y, zero_y] at h ⊢
    rw [div_eq_one_iff_eq h]
    have := P.on
    linear_combination this

theorem frac_x {a b a' b' x3 y3 : K} (hb : b ≠ 0) (hb' : b' ≠ 0) :
    (a / b * y3 + a' / b' * x3) = (a * y3 * b' + a' * x3 * b) / (b * b') := by
  field_simp

theorem assoc' (P Q R : Pt d) : P + Q + R = P + (Q + R) := by
  have n1 := one_add_ne hg P.on Q.on
  have n2 := one_sub_ne hg P.on Q.on
  have n3 := one_add_ne hg Q.on R.on
  have n4 := one_sub_ne hg Q.on R.on
  have m1 := one_add_ne hg (P + Q).on R.on
  have m2 := one_sub_ne hg (P + Q).on R.on
  have m3 := one_add_ne hg P.on (Q + R).on
  have m4 := one_sub_ne hg P.on (Q + R).on
  ext
  · simp only [add_x, add_y] at m1 m3 ⊢
    rw [div_eq_div_iff m1 m3]
    have := assoc_x_poly d P.x P.y Q.x Q.y R.x R.y P.on Q.on R.on
    generalize 1 + d * P.x * Q.x * P.y * Q.y = a at *
    generalize 1 - d * P.x * Q.x * P.y * Q.y = a' at *
    generalize 1 + d * Q.x * R.x * Q.y * R.y = b at *
    generalize 1 - d * Q.x * R.x * Q.y * R.y = b' at *
    generalize P.x * Q.y + P.y * Q.x = u at *
    generalize P.y * Q.y - P.x * Q.x = u' at *
    generalize Q.x * R.y + Q.y * R.x = v at *
    generalize Q.y * R.y - Q.x * R.x = v' at *
    clear m1 m3
    field_simp
    linear_combination this
  · simp only [add_x, add_y] at m2 m4 ⊢
    rw [div_eq_div_iff m2 m4]
    have := assoc_y_poly d P.x P.y Q.x Q.y R.x R.y P.on Q.on R.on
    generalize 1 + d * P.x * Q.x * P.y * Q.y = a at *
    generalize 1 - d * P.x * Q.x * P.y * Q.y = a' at *
    generalize 1 + d * Q.x * R.x * Q.y * R.y = b at *
    generalize 1 - d * Q.x * R.x * Q.y * R.y = b' at *
    generalize P.x * Q.y + P.y * Q.x = u at *
    generalize P.y * Q.y - P.x * Q.x = u' at *
    generalize Q.x * R.y + Q.y * R.x = v at *
    generalize Q.y * R.y - Q.x * R.x = v' at *
    clear m2 m4
    field_simp
    linear_combination this

instance : AddCommGroup (Pt d) where
  add_assoc := assoc'
  zero_add := zero_add'
  add_zero P := by rw [add_comm', zero_add']
  neg_add_cancel := neg_add'
  add_comm := add_comm'
  nsmul := nsmulRec
  zsmul := zsmulRec

end
end Otrr.Edwards
