import Verif.Spec.Curve
import Mathlib.Algebra.QuadraticAlgebra.Defs
import Mathlib.FieldTheory.Finite.Basic
import Mathlib.Algebra.CharP.Frobenius
import Mathlib.Tactic.LinearCombination
import Mathlib.Tactic.Ring
/-!
The field of Ed448: its modulus is prime (a Lucas test on p + 1 = 2^224 (2^224 - 1)) and `d` is not a
square.
-/

namespace Otrr.PrimeP

/-- Product in the ring of pairs `a + b i`, `i^2 = -1`, modulo `N`. -/
def gmul (N : Nat) (u v : Nat × Nat) : Nat × Nat :=
  ((u.1 * v.1 + (N - u.2) * v.2) % N, (u.1 * v.2 + u.2 * v.1) % N)

/-- `r * t ^ e`, for `e < 2 ^ fuel`. -/
def gpow (N : Nat) : Nat → Nat → Nat × Nat → Nat × Nat → Nat × Nat
  | 0, _, r, _ => r
  | n + 1, e, r, t => gpow N n (e / 2) (if e % 2 = 1 then gmul N r t else r) (gmul N t t)

/-- Cast of a pair. -/
def cst (q : Nat) (u : Nat × Nat) : QuadraticAlgebra (ZMod q) (-1) 0 := ⟨u.1, u.2⟩

theorem cst_gmul {N q : Nat} (hq : q ∣ N) {u v : Nat × Nat} (hu : u.2 ≤ N) :
    cst q (gmul N u v) = cst q u * cst q v := by
  have hN : (N : ZMod q) = 0 := (ZMod.natCast_eq_zero_iff _ _).mpr hq
  have hmod : ∀ a : Nat, ((a % N : Nat) : ZMod q) = (a : ZMod q) := by
    intro a
    conv_rhs => rw [← Nat.mod_add_div a N]
    rw [Nat.cast_add, Nat.cast_mul, hN]
    ring
  ext
  · simp only [cst, gmul, QuadraticAlgebra.re_mul, hmod]
    rw [Nat.cast_add, Nat.cast_mul, Nat.cast_mul, Nat.cast_sub hu, hN]
    ring
  · simp only [cst, gmul, QuadraticAlgebra.im_mul, hmod]
    push_cast
    ring

theorem gmul_le {N : Nat} (hN : 0 < N) (u v : Nat × Nat) : (gmul N u v).2 ≤ N :=
  Nat.le_of_lt (Nat.mod_lt _ hN)

theorem cst_gpow {N q : Nat} (hN : 0 < N) (hq : q ∣ N) (n e : Nat) (r t : Nat × Nat) (he : e < 2 ^ n)
    (hr : r.2 ≤ N) (ht : t.2 ≤ N) : cst q (gpow N n e r t) = cst q r * cst q t ^ e := by
  induction n generalizing e r t with
  | zero =>
    have : e = 0 := by simpa using he
    subst this
    simp [gpow]
  | succ n ih =>
    rw [gpow, ih _ _ _ (by rw [Nat.pow_succ] at he; omega) (by split; exact gmul_le hN _ _; exact hr)
      (gmul_le hN _ _), cst_gmul hq ht]
    conv_rhs => rw [← Nat.div_add_mod e 2]
    rw [pow_add, pow_mul, pow_two]
    by_cases h : e % 2 = 1
    · rw [if_pos h, cst_gmul hq hr, h]
      ring
    · rw [if_neg h]
      have : e % 2 = 0 := by omega
      rw [this]
      ring

/-- `r * b ^ e` modulo `m`, for `e < 2 ^ fuel`. -/
def powLoop (m : Nat) : Nat → Nat → Nat → Nat → Nat
  | 0, _, r, _ => r
  | n + 1, e, r, t => powLoop m n (e / 2) (if e % 2 = 1 then r * t % m else r) (t * t % m)

theorem powLoop_spec (m n e r t : Nat) (he : e < 2 ^ n) : powLoop m n e r t % m = r * t ^ e % m := by
  induction n generalizing e r t with
  | zero =>
    have : e = 0 := by simpa using he
    subst this
    simp [powLoop]
  | succ n ih =>
    rw [powLoop, ih _ _ _ (by rw [Nat.pow_succ] at he; omega)]
    conv_rhs => rw [← Nat.div_add_mod e 2]
    rw [Nat.pow_add, Nat.pow_mul, Nat.pow_two]
    by_cases h : e % 2 = 1
    · rw [if_pos h, h, Nat.pow_one]
      rw [Nat.mul_mod, Nat.mod_mod, ← Nat.mul_mod, Nat.mul_mod (r * t), Nat.pow_mod (t * t % m), Nat.mod_mod,
        ← Nat.pow_mod, ← Nat.mul_mod]
      congr 1; ring
    · rw [if_neg h]
      have h0 : e % 2 = 0 := by omega
      rw [h0, Nat.pow_zero, Nat.mul_one]
      rw [Nat.mul_mod, Nat.pow_mod (t * t % m), Nat.mod_mod, ← Nat.pow_mod, ← Nat.mul_mod]

/-- The element whose powers are computed. -/
def alpha : Nat × Nat :=
  (111821342199324137007588278136616082208252517028818163120229261412401896641035503490214828261334853220013674532591328824777461233594682, 559106710996620685037941390683080411041262585144090815601146307062009483205177517451074141306674266100068372662956644123887306167973415)

theorem alpha_norm : (alpha.1 * alpha.1 + alpha.2 * alpha.2) % ed448.p = 1 := by decide +kernel

theorem alpha_pow : gpow ed448.p 224 (2 ^ 223) (1, 0) (gpow ed448.p 224 (2 ^ 224 - 1) (1, 0) alpha) =
    (ed448.p - 1, 0) := by decide +kernel

theorem gpow_le {N : Nat} (hN : 0 < N) (n e : Nat) (r t : Nat × Nat) (hr : r.2 ≤ N) :
    (gpow N n e r t).2 ≤ N := by
  induction n generalizing e r t with
  | zero => exact hr
  | succ n ih =>
    rw [gpow]
    exact ih _ _ _ (by split; exact gmul_le hN _ _; exact hr)

/-- The group-theoretic core: `A` has norm 1 and `A ^ k` has order `2 ^ (n + 1)`. -/
theorem order_dvd {q k n : Nat} (hq : Nat.Prime q) (hodd : q ≠ 2) (A : QuadraticAlgebra (ZMod q) (-1) 0)
    (hnorm : A * ⟨A.re, -A.im⟩ = 1) (hpow : (A ^ k) ^ (2 ^ n) = -1) :
    2 ^ (n + 1) ∣ q - 1 ∨ 2 ^ (n + 1) ∣ q + 1 := by
  have := Fact.mk hq
  have : CharP (QuadraticAlgebra (ZMod q) (-1) 0) q :=
    charP_of_injective_algebraMap (QuadraticAlgebra.algebraMap_injective (R := ZMod q)) q
  generalize hconj : (⟨A.re, -A.im⟩ : QuadraticAlgebra (ZMod q) (-1) 0) = conj at hnorm
  have hne : (-1 : QuadraticAlgebra (ZMod q) (-1) 0) ≠ 1 := by
    intro h
    have h2 := congrArg QuadraticAlgebra.re h
    simp only [QuadraticAlgebra.re_neg, QuadraticAlgebra.re_one] at h2
    have : Fact (2 < q) := ⟨by have := hq.two_le; omega⟩
    exact ZMod.neg_one_ne_one h2
  generalize hBB : A ^ k = B at hpow
  have hord : orderOf B = 2 ^ (n + 1) := by
    have h2 : Fact (Nat.Prime 2) := ⟨Nat.prime_two⟩
    apply orderOf_eq_prime_pow
    · rw [hpow]; exact hne
    · rw [pow_succ, pow_mul, hpow, neg_one_sq]
  -- Frobenius
  have hfrob : A ^ q = A ∨ A ^ q = conj := by
    generalize hw : (⟨0, 1⟩ : QuadraticAlgebra (ZMod q) (-1) 0) = w
    have hw2 : w * w = -1 := by
      rw [← hw]
      ext
      · simp [QuadraticAlgebra.re_one]
      · simp [QuadraticAlgebra.im_one]
    have hAw : A = QuadraticAlgebra.C A.re + QuadraticAlgebra.C A.im * w := by
      rw [← hw]
      ext
      · simp
      · simp
    have hcw : conj = QuadraticAlgebra.C A.re - QuadraticAlgebra.C A.im * w := by
      rw [← hw, ← hconj]
      ext
      · simp
      · simp
    obtain ⟨k, hk⟩ : ∃ k, q = 2 * k + 1 := by
      rcases hq.eq_two_or_odd' with h | h
      · exact absurd h hodd
      · exact h
    have hwq : w ^ (2 * k + 1) = w ∨ w ^ (2 * k + 1) = -w := by
      rw [pow_succ, pow_mul, pow_two, hw2]
      rcases neg_one_pow_eq_or (QuadraticAlgebra (ZMod q) (-1) 0) k with h | h
      · left; rw [h, one_mul]
      · right; rw [h, neg_one_mul]
    rw [← hk] at hwq
    have hC : ∀ a : ZMod q, (QuadraticAlgebra.C a : QuadraticAlgebra (ZMod q) (-1) 0) ^ q = QuadraticAlgebra.C a := by
      intro a
      rw [← QuadraticAlgebra.C_pow, ZMod.pow_card]
    have hAq : A ^ q = QuadraticAlgebra.C A.re + QuadraticAlgebra.C A.im * w ^ q := by
      conv_lhs => rw [hAw]
      rw [add_pow_char, mul_pow, hC, hC]
    rcases hwq with h | h
    · left; rw [hAq, h, ← hAw]
    · right; rw [hAq, h, hcw, mul_neg, sub_eq_add_neg]
  rcases hfrob with h | h
  · left
    have h1 : A ^ (q - 1) = 1 := by
      have e : A ^ (q - 1) * A = A := by
        rw [← pow_succ, Nat.sub_add_cancel hq.one_le, h]
      calc A ^ (q - 1) = A ^ (q - 1) * (A * conj) := by rw [hnorm, mul_one]
        _ = A ^ (q - 1) * A * conj := by rw [mul_assoc]
        _ = 1 := by rw [e, hnorm]
    rw [← hord]
    apply orderOf_dvd_of_pow_eq_one
    rw [← hBB, ← pow_mul, mul_comm, pow_mul, h1, one_pow]
  · right
    have h1 : A ^ (q + 1) = 1 := by rw [pow_succ, h, mul_comm, hnorm]
    rw [← hord]
    apply orderOf_dvd_of_pow_eq_one
    rw [← hBB, ← pow_mul, mul_comm, pow_mul, h1, one_pow]

/-- Every prime factor of a number passing the test is 1 or -1 modulo a power of two. -/
theorem factor_mod {N q k n f : Nat} {al : Nat × Nat} (hN : 0 < N) (h2 : N % 2 = 1) (hal : al.2 ≤ N)
    (hnorm : (al.1 * al.1 + al.2 * al.2) % N = 1) (hk : k < 2 ^ f) (hn : 2 ^ n < 2 ^ f)
    (hpow : gpow N f (2 ^ n) (1, 0) (gpow N f k (1, 0) al) = (N - 1, 0))
    (hq : Nat.Prime q) (hd : q ∣ N) : 2 ^ (n + 1) ∣ q - 1 ∨ 2 ^ (n + 1) ∣ q + 1 := by
  have hodd : q ≠ 2 := by
    rintro rfl
    omega
  have hone : cst q (1, 0) = 1 := by ext <;> simp [cst, QuadraticAlgebra.re_one, QuadraticAlgebra.im_one]
  have hN0 : ((N : Nat) : ZMod q) = 0 := (ZMod.natCast_eq_zero_iff _ _).mpr hd
  have hB : cst q (gpow N f k (1, 0) al) = cst q al ^ k := by
    rw [cst_gpow hN hd _ _ _ _ hk (Nat.zero_le _) hal, hone, one_mul]
  apply order_dvd hq hodd (cst q al) (k := k)
  · have h1 : ((al.1 * al.1 + al.2 * al.2 : Nat) : ZMod q) = 1 := by
      have h := Nat.div_add_mod (al.1 * al.1 + al.2 * al.2) N
      rw [hnorm] at h
      rw [← h, Nat.cast_add, Nat.cast_mul, hN0]
      simp
    push_cast at h1
    ext
    · simp only [QuadraticAlgebra.re_mul, QuadraticAlgebra.re_one, cst]
      linear_combination h1
    · simp only [QuadraticAlgebra.im_mul, QuadraticAlgebra.im_one, cst]
      ring
  · rw [← hB]
    have h := cst_gpow hN hd f (2 ^ n) (1, 0) (gpow N f k (1, 0) al) hn (Nat.zero_le _)
      (gpow_le hN _ _ _ _ (Nat.zero_le _))
    rw [hpow, hone, one_mul] at h
    rw [← h]
    ext
    · simp only [cst, QuadraticAlgebra.re_neg, QuadraticAlgebra.re_one]
      rw [Nat.cast_sub (by omega), hN0]; simp
    · simp [cst, QuadraticAlgebra.im_neg, QuadraticAlgebra.im_one]

theorem c1 : 0 < ed448.p := by decide +kernel
theorem c2 : ed448.p % 2 = 1 := by decide +kernel
theorem c3 : alpha.2 ≤ ed448.p := by decide +kernel
theorem c4 : 2 ^ 224 - 1 < 2 ^ 224 := by decide +kernel
theorem c5 : 2 ^ 223 < 2 ^ 224 := by decide +kernel
theorem c6 : 3 ∣ 2 ^ 224 - 1 := by decide +kernel
theorem c7 : 3 ≠ 2 ^ 224 - 1 := by decide +kernel

theorem factor_mod' {q : Nat} (hq : Nat.Prime q) (hd : q ∣ ed448.p) :
    2 ^ 224 ∣ q - 1 ∨ 2 ^ 224 ∣ q + 1 :=
  factor_mod (N := ed448.p) (q := q) (k := 2 ^ 224 - 1) (n := 223) (f := 224) (al := alpha) c1 c2 c3 alpha_norm
    c4 c5 alpha_pow hq hd

/-- Every prime factor of the modulus exceeds its square root. -/
theorem factor_large {q : Nat} (hq : Nat.Prime q) (hd : q ∣ ed448.p) : 2 ^ 224 < q := by
  have hdv := factor_mod' hq hd
  have h6 := c6
  have h7 := c7
  have hq2 := hq.two_le
  generalize hX : 2 ^ 224 = X at *
  by_contra hlt
  rcases hdv with h | h
  · have := Nat.le_of_dvd (by omega) h
    omega
  · obtain ⟨j, hj⟩ := h
    have hq3 : q = X - 1 := by
      rcases j with _ | _ | j
      · omega
      · omega
      · exfalso
        have e : X * (j + 1 + 1) = X * j + X + X := by ring
        omega
    have := (Nat.prime_dvd_prime_iff_eq Nat.prime_three hq).mp (by rw [hq3]; exact h6)
    omega

theorem c8 : ed448.p < (2 ^ 224) ^ 2 := by decide +kernel
theorem c9 : ed448.p ≠ 1 := by decide +kernel

theorem prime_of_factors {N X : Nat} (h0 : 0 < N) (h1 : N ≠ 1) (hX : N < X ^ 2)
    (hf : ∀ q, Nat.Prime q → q ∣ N → X < q) : Nat.Prime N := by
  by_contra hn
  have h3 := Nat.minFac_sq_le_self h0 hn
  have h2 := hf _ (Nat.minFac_prime h1) (Nat.minFac_dvd _)
  have h4 : X ^ 2 ≤ N.minFac ^ 2 := Nat.pow_le_pow_left (Nat.le_of_lt h2) 2
  omega

theorem prime_p : Nat.Prime ed448.p :=
  prime_of_factors c1 c9 c8 fun _ hq hd => factor_large hq hd

/-- Euler's criterion, one direction: `d` (written `N - e`) is not a square if its power is -1. -/
theorem nonsquare_of_pow {N e f : Nat} {d : Int} (hN : Nat.Prime N) (h2 : N % 2 = 1) (hf : (N - 1) / 2 < 2 ^ f)
    (he : e ≤ N) (hd : d = -(e : Int)) (hp : powLoop N f ((N - 1) / 2) 1 (N - e) = N - 1) :
    ∀ r : Int, ¬ (N : Int) ∣ r ^ 2 - d := by
  intro r hr
  have := Fact.mk hN
  have hN2 : 2 < N := by have := hN.two_le; omega
  have h1 : ((r ^ 2 - d : Int) : ZMod N) = 0 := (ZMod.intCast_zmod_eq_zero_iff_dvd _ _).mpr hr
  have hdd : ((d : Int) : ZMod N) = ((N - e : Nat) : ZMod N) := by
    rw [Nat.cast_sub he, hd]
    push_cast
    simp
  push_cast at h1
  have h2' : (r : ZMod N) ^ 2 = ((N - e : Nat) : ZMod N) := by
    rw [← hdd]; linear_combination h1
  have h3 : ((N - e : Nat) : ZMod N) ^ ((N - 1) / 2) = -1 := by
    have e := powLoop_spec N f ((N - 1) / 2) 1 (N - e) hf
    rw [hp, one_mul] at e
    have e2 := (ZMod.natCast_eq_natCast_iff' _ _ _).mpr e
    rw [Nat.cast_pow] at e2
    rw [← e2, Nat.cast_sub (by omega)]
    simp
  have h4 : (r : ZMod N) ^ (N - 1) = -1 := by
    rw [← h3, ← h2', ← pow_mul]
    congr 1
    omega
  have hr0 : (r : ZMod N) ≠ 0 := by
    intro h0
    rw [h0, zero_pow (by omega)] at h4
    exact one_ne_zero (neg_eq_zero.mp h4.symm)
  rw [ZMod.pow_card_sub_one_eq_one hr0] at h4
  have : Fact (2 < N) := ⟨hN2⟩
  exact ZMod.neg_one_ne_one h4.symm

theorem d_pow : powLoop ed448.p 448 ((ed448.p - 1) / 2) 1 (ed448.p - 39081) = ed448.p - 1 := by decide +kernel
theorem c10 : (ed448.p - 1) / 2 < 2 ^ 448 := by decide +kernel
theorem c11 : 39081 ≤ ed448.p := by decide +kernel
theorem c12 : ed448.p % 4 = 3 := by decide +kernel
theorem c13 : ed448.p < 256 ^ 56 := by decide +kernel

end Otrr.PrimeP

namespace Otrr

open PrimeP

/-- The field of Ed448 is as it should be. -/
theorem ed448_goodField : Spec.GoodField ed448 where
  prime := prime_p
  mod4 := c12
  small := c13
  nonsquare := nonsquare_of_pow prime_p c2 c10 c11 rfl d_pow

end Otrr
