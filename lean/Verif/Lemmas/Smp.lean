import Verif.Spec.Smp
import Verif.Lemmas.Messages
import Verif.Lemmas.Ed448Group
import Mathlib.Data.ZMod.Basic
import Mathlib.Algebra.Field.ZMod
import Mathlib.GroupTheory.OrderOfElement
import Mathlib.Tactic.LinearCombination
/-!
Lemmas about the model of SMP in OTRv3: arithmetic in the subgroup, and what each step does.
-/

namespace Otrr
open Spec

namespace SMP

section field
variable {G : DHGroup}

theorem cast_mod (p a : Nat) : ((a % p : Nat) : ZMod p) = (a : ZMod p) := ZMod.natCast_mod a p

theorem cast_modpow (b e p : Nat) : ((modpow b e p : Nat) : ZMod p) = (b : ZMod p) ^ e := by
  rw [modpow, cast_mod, Nat.cast_pow]

theorem cast_pow2 (a x b y : Nat) : ((pow2 G a x b y : Nat) : ZMod G.p) = (a : ZMod G.p) ^ x * (b : ZMod G.p) ^ y := by
  rw [pow2, cast_mod, Nat.cast_mul, cast_modpow, cast_modpow]

theorem cast_pow3 (a x b y c z : Nat) :
    ((pow3 G a x b y c z : Nat) : ZMod G.p) = (a : ZMod G.p) ^ x * (b : ZMod G.p) ^ y * (c : ZMod G.p) ^ z := by
  rw [pow3, cast_mod, Nat.cast_mul, Nat.cast_mul, cast_modpow, cast_modpow, cast_modpow]

theorem pow2_eq (a x b y : Nat) : pow2 G a x b y = a ^ x * b ^ y % G.p := by
  rw [pow2, modpow, modpow, ← Nat.mul_mod]

theorem pow3_eq (a x b y c z : Nat) : pow3 G a x b y c z = a ^ x * b ^ y * c ^ z % G.p := by
  rw [pow3, modpow, modpow, modpow, Nat.mul_mod (a ^ x * b ^ y), Nat.mul_mod (a ^ x), ← Nat.mul_mod]
  simp [Nat.mul_mod]

theorem pow2_modpow (a x b e y : Nat) : pow2 G a x (modpow b e G.p) y = a ^ x * (b ^ e) ^ y % G.p := by
  rw [pow2_eq, modpow, Nat.mul_mod, ← Nat.pow_mod, ← Nat.mul_mod]

theorem eq_of_cast {p a b : Nat} (ha : a < p) (hb : b < p) (h : (a : ZMod p) = (b : ZMod p)) : a = b := by
  have := (ZMod.natCast_eq_natCast_iff' a b p).mp h
  rwa [Nat.mod_eq_of_lt ha, Nat.mod_eq_of_lt hb] at this

theorem pow_mod_order {R : Type*} [Monoid R] {h : R} {q : Nat} (hq : h ^ q = 1) (n : Nat) : h ^ (n % q) = h ^ n := by
  conv_rhs => rw [← Nat.div_add_mod n q, pow_add, pow_mul, hq, one_pow, one_mul]

/-- The verification equation of a proof of knowledge. -/
theorem response_spec {R : Type*} [CommMonoid R] {h : R} (hq0 : 0 < G.q) (hq : h ^ G.q = 1) (r a c : Nat) :
    h ^ response G r a c * (h ^ a) ^ c = h ^ r := by
  have hlt := Nat.mod_lt (a * c) hq0
  rw [response, pow_mod_order hq, ← pow_mul, ← pow_mod_order hq (a * c), ← pow_add,
    show r + G.q - a * c % G.q + a * c % G.q = r + G.q by omega, pow_add, hq, mul_one]

end field

section group
variable {G : DHGroup}

theorem _root_.Otrr.Spec.SmpGroup.gq (hG : SmpGroup G) : (G.g : ZMod G.p) ^ G.q = 1 := by
  have := congrArg (Nat.cast : Nat → ZMod G.p) hG.order
  rw [cast_mod] at this
  simpa using this

theorem _root_.Otrr.Spec.SmpGroup.pow_q (hG : SmpGroup G) (n : Nat) : ((G.g : ZMod G.p) ^ n) ^ G.q = 1 := by
  rw [← pow_mul, Nat.mul_comm, pow_mul, hG.gq, one_pow]

theorem _root_.Otrr.Spec.SmpGroup.g_ne_one (hG : SmpGroup G) : (G.g : ZMod G.p) ≠ 1 := by
  intro h
  have h1 := hG.two_le
  have := eq_of_cast (p := G.p) hG.g_lt (b := 1) (by have := hG.g_lt; omega) (by simpa using h)
  omega

/-- Powers of the generator are equal exactly if the exponents are congruent. -/
theorem _root_.Otrr.Spec.SmpGroup.pow_eq (hG : SmpGroup G) (m n : Nat) :
    (G.g : ZMod G.p) ^ m = (G.g : ZMod G.p) ^ n ↔ m % G.q = n % G.q := by
  have := Fact.mk hG.prime
  have := Fact.mk hG.prime_q
  have ho : orderOf (G.g : ZMod G.p) = G.q := orderOf_eq_prime hG.gq hG.g_ne_one
  have hne : (G.g : ZMod G.p) ≠ 0 := by
    intro h
    have h1 := hG.gq
    rw [h, zero_pow hG.prime_q.ne_zero] at h1
    exact zero_ne_one h1
  let u : (ZMod G.p)ˣ := Units.mk0 _ hne
  have hu : orderOf u = G.q := by rw [← orderOf_units]; exact ho
  have h1 : (G.g : ZMod G.p) ^ m = (G.g : ZMod G.p) ^ n ↔ u ^ m = u ^ n := by
    rw [← Units.val_inj]
    simp [u]
  rw [h1, pow_eq_pow_iff_modEq, hu]
  rfl

theorem elem_ne_zero (hG : SmpGroup G) {v : Nat} (h : Element G v) : (v : ZMod G.p) ≠ 0 := by
  intro e
  have h1 := (ZMod.natCast_eq_zero_iff _ _).mp e
  have h2 := hG.two_le
  have h3 := Nat.le_of_dvd (by have := h.1; omega) h1
  have h4 := h.2
  have := hG.prime.two_le
  omega

theorem elem_ne_one (hG : SmpGroup G) {v : Nat} (h : Element G v) : (v : ZMod G.p) ≠ 1 := by
  intro e
  have h2 := hG.two_le
  have := eq_of_cast (p := G.p) (a := v) (b := 1) (by have := h.2; have := hG.prime.two_le; omega)
    hG.prime.one_lt (by simpa using e)
  have := h.1
  omega

theorem div_ok (hG : SmpGroup G) (a : Nat) {b : Nat} (hb : (b : ZMod G.p) ≠ 0) :
    ∃ k, div G a b = .ok k ∧ k < G.p ∧ (k : ZMod G.p) * b = a := by
  obtain ⟨r, h1, h2⟩ := modInverse_spec hG.prime (b : Int) (by simpa using hb)
  refine ⟨a * r % G.p, by simp [div, modInv, h1], Nat.mod_lt _ hG.prime.pos, ?_⟩
  rw [cast_mod, Nat.cast_mul, mul_assoc]
  have : (r : ZMod G.p) * b = 1 := by simpa using h2
  rw [this, mul_one]

theorem quotient_iff (k a b : Nat) : IsQuotient G.p k a b ↔ (k : ZMod G.p) * b = a := by
  rw [IsQuotient, ← ZMod.natCast_eq_natCast_iff']
  simp

/-- The final comparison: with values formed as the proofs claim, it holds exactly if the secrets are equal.
`n` stands for `a3 b3`, `m` for `a2 b2`. -/
theorem final_iff [Fact (Nat.Prime G.p)] (hG : SmpGroup G) {m n s t x y : Nat} {k l Pa Pb Qa Qb : ZMod G.p}
    (hPa : Pa = ((G.g : ZMod G.p) ^ n) ^ s) (hPb : Pb = ((G.g : ZMod G.p) ^ n) ^ t)
    (hQa : Qa = (G.g : ZMod G.p) ^ s * ((G.g : ZMod G.p) ^ m) ^ x)
    (hQb : Qb = (G.g : ZMod G.p) ^ t * ((G.g : ZMod G.p) ^ m) ^ y)
    (hk : k * Qb = Qa) (hl : l * Pb = Pa) :
    l = k ^ n ↔ (m * n * x) % G.q = (m * n * y) % G.q := by
  have hg : (G.g : ZMod G.p) ≠ 0 := by
    intro h
    have h1 := hG.gq
    rw [h, zero_pow hG.prime_q.ne_zero] at h1
    exact zero_ne_one h1
  have hP0 : Pb ≠ 0 := by rw [hPb]; exact pow_ne_zero _ (pow_ne_zero _ hg)
  have hQ0 : Qb ^ n ≠ 0 := by
    rw [hQb]
    exact pow_ne_zero _ (mul_ne_zero (pow_ne_zero _ hg) (pow_ne_zero _ (pow_ne_zero _ hg)))
  have h1 : l = k ^ n ↔ Pa * Qb ^ n = Qa ^ n * Pb := by
    rw [← hk, ← hl, mul_pow]
    constructor
    · intro h; rw [h]; ring
    · intro h
      have : (l - k ^ n) * (Pb * Qb ^ n) = 0 := by linear_combination h
      rcases mul_eq_zero.mp this with h | h
      · exact sub_eq_zero.mp h
      · exact absurd h (mul_ne_zero hP0 hQ0)
  have hz : ((G.g : ZMod G.p) ^ n) ^ s * ((G.g : ZMod G.p) ^ n) ^ t ≠ 0 :=
    mul_ne_zero (pow_ne_zero _ (pow_ne_zero _ hg)) (pow_ne_zero _ (pow_ne_zero _ hg))
  rw [h1, hPa, hPb, hQa, hQb, ← hG.pow_eq]
  have e1 : ((G.g : ZMod G.p) ^ n) ^ s * ((G.g : ZMod G.p) ^ t * ((G.g : ZMod G.p) ^ m) ^ y) ^ n =
      (((G.g : ZMod G.p) ^ n) ^ s * ((G.g : ZMod G.p) ^ n) ^ t) * (G.g : ZMod G.p) ^ (m * n * y) := by ring
  have e2 : ((G.g : ZMod G.p) ^ s * ((G.g : ZMod G.p) ^ m) ^ x) ^ n * ((G.g : ZMod G.p) ^ n) ^ t =
      (((G.g : ZMod G.p) ^ n) ^ s * ((G.g : ZMod G.p) ^ n) ^ t) * (G.g : ZMod G.p) ^ (m * n * x) := by ring
  rw [e1, e2]
  constructor
  · intro h; exact (mul_left_cancel₀ hz h).symm
  · intro h; rw [h]

/-- Cancelling exponents that are not multiples of the order. -/
theorem cancel_exp (hG : SmpGroup G) {u x y : Nat} (hu : (G.g : ZMod G.p) ^ u ≠ 1) :
    (u * x) % G.q = (u * y) % G.q ↔ x % G.q = y % G.q := by
  have hc : Nat.Coprime G.q u := by
    apply (Nat.Prime.coprime_iff_not_dvd hG.prime_q).mpr
    intro hd
    apply hu
    rw [← pow_zero (G.g : ZMod G.p), hG.pow_eq, Nat.mod_eq_zero_of_dvd hd, Nat.zero_mod]
  constructor
  · intro h; exact Nat.ModEq.cancel_left_of_coprime hc h
  · intro h; exact Nat.ModEq.mul_left u h

theorem pow_mul_ne_one (hG : SmpGroup G) {u v : Nat} (hu : (G.g : ZMod G.p) ^ u ≠ 1) (hv : (G.g : ZMod G.p) ^ v ≠ 1) :
    (G.g : ZMod G.p) ^ (u * v) ≠ 1 := by
  intro h
  rw [← pow_zero (G.g : ZMod G.p), hG.pow_eq] at h
  have := (cancel_exp hG (x := v) (y := 0) hu).mp (by simpa using h)
  exact hv (by rw [← pow_zero (G.g : ZMod G.p), hG.pow_eq, this])

end group

end SMP

end Otrr
