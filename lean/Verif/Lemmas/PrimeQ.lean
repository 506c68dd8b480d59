import Verif.Lemmas.PrimeP
import Mathlib.NumberTheory.LucasPrimality
import Mathlib.NumberTheory.LegendreSymbol.Basic
import Mathlib.Tactic.NormNum.Prime
/-!
The order of the base point of Ed448 is prime: a chain of Lucas tests on `n + 1`, with powers of `3 + 2 √2`, and
Pocklington tests on `n - 1`.
-/

namespace Otrr.PrimeQ
open PrimeP

/-- Product in the ring of pairs `a + b √2`, modulo `N`. -/
def smul (N : Nat) (u v : Nat × Nat) : Nat × Nat :=
  ((u.1 * v.1 + 2 * u.2 * v.2) % N, (u.1 * v.2 + u.2 * v.1) % N)

/-- `r * t ^ e`, for `e < 2 ^ fuel`. -/
def spow (N : Nat) : Nat → Nat → Nat × Nat → Nat × Nat → Nat × Nat
  | 0, _, r, _ => r
  | n + 1, e, r, t => spow N n (e / 2) (if e % 2 = 1 then smul N r t else r) (smul N t t)

/-- Cast of a pair. -/
def cst2 (q : Nat) (u : Nat × Nat) : QuadraticAlgebra (ZMod q) 2 0 := ⟨u.1, u.2⟩

theorem cast_mod {N q : Nat} (hq : q ∣ N) (a : Nat) : ((a % N : Nat) : ZMod q) = (a : ZMod q) := by
  have hN : (N : ZMod q) = 0 := (ZMod.natCast_eq_zero_iff _ _).mpr hq
  conv_rhs => rw [← Nat.mod_add_div a N]
  rw [Nat.cast_add, Nat.cast_mul, hN]
  ring

theorem cst2_smul {N q : Nat} (hq : q ∣ N) (u v : Nat × Nat) : cst2 q (smul N u v) = cst2 q u * cst2 q v := by
  ext
  · simp only [cst2, smul, QuadraticAlgebra.re_mul, cast_mod hq]
    push_cast
    ring
  · simp only [cst2, smul, QuadraticAlgebra.im_mul, cast_mod hq]
    push_cast
    ring

theorem cst2_spow {N q : Nat} (hq : q ∣ N) (n e : Nat) (r t : Nat × Nat) (he : e < 2 ^ n) :
    cst2 q (spow N n e r t) = cst2 q r * cst2 q t ^ e := by
  induction n generalizing e r t with
  | zero =>
    have : e = 0 := by simpa using he
    subst this
    simp [spow]
  | succ n ih =>
    rw [spow, ih _ _ _ (by rw [Nat.pow_succ] at he; omega), cst2_smul hq]
    conv_rhs => rw [← Nat.div_add_mod e 2]
    rw [pow_add, pow_mul, pow_two]
    by_cases h : e % 2 = 1
    · rw [if_pos h, cst2_smul hq, h]
      ring
    · rw [if_neg h]
      have : e % 2 = 0 := by omega
      rw [this]
      ring

/-- An element of norm 1 modulo a prime has an order that divides `q - 1` or `q + 1`. -/
theorem order_dvd2 {q k F : Nat} (hq : Nat.Prime q) (hodd : q ≠ 2) (hF : Nat.Prime F) (A : QuadraticAlgebra (ZMod q) 2 0)
    (hnorm : A * ⟨A.re, -A.im⟩ = 1) (hpow : (A ^ k) ^ F = 1) (hne : A ^ k ≠ 1) : F ∣ q - 1 ∨ F ∣ q + 1 := by
  have := Fact.mk hq
  have := Fact.mk hF
  have : CharP (QuadraticAlgebra (ZMod q) 2 0) q :=
    charP_of_injective_algebraMap (QuadraticAlgebra.algebraMap_injective (R := ZMod q)) q
  generalize hconj : (⟨A.re, -A.im⟩ : QuadraticAlgebra (ZMod q) 2 0) = conj at hnorm
  have hord : orderOf (A ^ k) = F := orderOf_eq_prime hpow hne
  have h20 : (2 : ZMod q) ≠ 0 := by
    intro h
    have := (ZMod.natCast_eq_zero_iff 2 q).mp (by exact_mod_cast h)
    exact hodd ((Nat.prime_dvd_prime_iff_eq hq Nat.prime_two).mp this)
  have hfrob : A ^ q = A ∨ A ^ q = conj := by
    generalize hw : (⟨0, 1⟩ : QuadraticAlgebra (ZMod q) 2 0) = w
    have hw2 : w * w = QuadraticAlgebra.C 2 := by
      rw [← hw]
      ext
      · simp only [QuadraticAlgebra.re_mul, QuadraticAlgebra.re_C]; ring
      · simp only [QuadraticAlgebra.im_mul, QuadraticAlgebra.im_C]; ring
    have hAw : A = QuadraticAlgebra.C A.re + QuadraticAlgebra.C A.im * w := by
      rw [← hw]
      ext
      · simp
      · simp
    have hcw : conj = QuadraticAlgebra.C A.re - QuadraticAlgebra.C A.im * w := by
      rw [← hw, ← hconj]
      ext
      · simp
      · simp
    obtain ⟨k, hk⟩ : ∃ k, q = 2 * k + 1 := by
      rcases hq.eq_two_or_odd' with h | h
      · exact absurd h hodd
      · exact h
    have hwq : w ^ (2 * k + 1) = w ∨ w ^ (2 * k + 1) = -w := by
      rw [pow_succ, pow_mul, pow_two, hw2, ← QuadraticAlgebra.C_pow]
      have hk2 : q / 2 = k := by omega
      have := ZMod.pow_div_two_eq_neg_one_or_one q h20
      rw [hk2] at this
      rcases this with h | h
      · left; rw [h]; simp
      · right; rw [h]; simp
    rw [← hk] at hwq
    have hC : ∀ a : ZMod q, (QuadraticAlgebra.C a : QuadraticAlgebra (ZMod q) 2 0) ^ q = QuadraticAlgebra.C a := by
      intro a
      rw [← QuadraticAlgebra.C_pow, ZMod.pow_card]
    have hAq : A ^ q = QuadraticAlgebra.C A.re + QuadraticAlgebra.C A.im * w ^ q := by
      conv_lhs => rw [hAw]
      rw [add_pow_char, mul_pow, hC, hC]
    rcases hwq with h | h
    · left; rw [hAq, h, ← hAw]
    · right; rw [hAq, h, hcw, mul_neg, sub_eq_add_neg]
  rw [← hord]
  rcases hfrob with h | h
  · left
    have h1 : A ^ (q - 1) = 1 := by
      have e : A ^ (q - 1) * A = A := by
        rw [← pow_succ, Nat.sub_add_cancel hq.one_le, h]
      calc A ^ (q - 1) = A ^ (q - 1) * (A * conj) := by rw [hnorm, mul_one]
        _ = A ^ (q - 1) * A * conj := by rw [mul_assoc]
        _ = 1 := by rw [e, hnorm]
    apply orderOf_dvd_of_pow_eq_one
    rw [← pow_mul, mul_comm, pow_mul, h1, one_pow]
  · right
    have h1 : A ^ (q + 1) = 1 := by rw [pow_succ, h, mul_comm, hnorm]
    apply orderOf_dvd_of_pow_eq_one
    rw [← pow_mul, mul_comm, pow_mul, h1, one_pow]

/-- The test on `n + 1`. -/
theorem prime_plus {N F R f : Nat} (hF : Nat.Prime F) (h1 : N ≠ 1) (h2 : N % 2 = 1) (hbig : N < (F - 2) ^ 2)
    (hR : R < 2 ^ f) (hFf : F < 2 ^ f) {w : Nat × Nat} (hw : spow N f R (1, 0) (3, 2) = w)
    (hone : spow N f F (1, 0) w = (1, 0)) (hg : Nat.gcd w.2 N = 1) : Nat.Prime N := by
  refine prime_of_factors (by omega) h1 hbig fun p hp hd => ?_
  have hodd : p ≠ 2 := by
    rintro rfl
    omega
  have h10 : cst2 p (1, 0) = 1 := by ext <;> simp [cst2, QuadraticAlgebra.re_one, QuadraticAlgebra.im_one]
  have hW : cst2 p w = cst2 p (3, 2) ^ R := by
    rw [← hw, cst2_spow hd _ _ _ _ hR, h10, one_mul]
  have h := order_dvd2 hp hodd hF (cst2 p (3, 2)) (k := R) ?_ ?_ ?_
  · have hF2 := hF.two_le
    have hp2 := hp.two_le
    rcases h with h | h
    · have := Nat.le_of_dvd (by omega) h
      omega
    · have := Nat.le_of_dvd (by omega) h
      omega
  · ext
    · simp only [QuadraticAlgebra.re_mul, QuadraticAlgebra.re_one, cst2]
      push_cast
      ring
    · simp only [QuadraticAlgebra.im_mul, QuadraticAlgebra.im_one, cst2]
      ring
  · have h := cst2_spow hd f F (1, 0) w hFf
    rw [hone, h10, one_mul, hW] at h
    exact h.symm
  · rw [← hW]
    intro h
    have h0 := congrArg QuadraticAlgebra.im h
    simp only [cst2, QuadraticAlgebra.im_one] at h0
    have := (ZMod.natCast_eq_zero_iff _ _).mp h0
    have := Nat.dvd_gcd this hd
    rw [hg] at this
    exact hp.one_lt.ne' (Nat.dvd_one.mp this)

/-- The test on `n - 1`. -/
theorem prime_minus {N F R f w : Nat} (hF : Nat.Prime F) (h1 : 1 < N) (hbig : N < (F - 2) ^ 2)
    (hR : R < 2 ^ f) (hFf : F < 2 ^ f) (hw : powLoop N f R 1 2 = w) (hone : powLoop N f F 1 w = 1)
    (hg : Nat.gcd (w - 1) N = 1) : Nat.Prime N := by
  refine prime_of_factors (by omega) (by omega) hbig fun p hp hd => ?_
  have := Fact.mk hp
  have := Fact.mk hF
  have hmod : ∀ {a b : Nat}, a % N = b % N → (a : ZMod p) = b := fun h => by
    rw [← cast_mod hd, h, cast_mod hd]
  have hW : ((w : Nat) : ZMod p) = ((2 : Nat) : ZMod p) ^ R := by
    rw [← Nat.cast_pow]
    refine hmod ?_
    rw [← hw, powLoop_spec _ _ _ _ _ hR, one_mul]
  have hWF : ((w : Nat) : ZMod p) ^ F = 1 := by
    have h := powLoop_spec N f F 1 w hFf
    rw [hone, one_mul] at h
    have := hmod h
    rw [Nat.cast_pow] at this
    rw [← this]
    simp
  have hw0 : w ≠ 0 := by
    rintro rfl
    rw [Nat.cast_zero, zero_pow hF.ne_zero] at hWF
    exact zero_ne_one hWF
  have hne : ((w : Nat) : ZMod p) ≠ 1 := by
    intro h
    have h0 : ((w - 1 : Nat) : ZMod p) = 0 := by rw [Nat.cast_sub (by omega), h]; simp
    have := Nat.dvd_gcd ((ZMod.natCast_eq_zero_iff _ _).mp h0) hd
    rw [hg] at this
    exact hp.one_lt.ne' (Nat.dvd_one.mp this)
  have hord : orderOf ((w : Nat) : ZMod p) = F := orderOf_eq_prime hWF hne
  have hwp : ((w : Nat) : ZMod p) ^ (p - 1) = 1 := by
    refine ZMod.pow_card_sub_one_eq_one fun h => ?_
    rw [h, zero_pow hF.ne_zero] at hWF
    exact zero_ne_one hWF
  have := Nat.le_of_dvd (by have := hp.two_le; omega) (hord ▸ orderOf_dvd_of_pow_eq_one hwp)
  have := hp.two_le
  omega

theorem pow_of_loop {N e f a : Nat} (he : e < 2 ^ f) (h : powLoop N f e 1 a = 1) : ((a : Nat) : ZMod N) ^ e = 1 := by
  have h2 := powLoop_spec N f e 1 a he
  rw [h, one_mul] at h2
  have := (ZMod.natCast_eq_natCast_iff' _ _ _).mpr h2
  rw [Nat.cast_pow] at this
  rw [← this]
  simp

theorem pow_of_loop_ne {N e f a : Nat} (he : e < 2 ^ f) (h : powLoop N f e 1 a % N ≠ 1 % N) : ((a : Nat) : ZMod N) ^ e ≠ 1 := by
  intro h1
  refine h ?_
  rw [powLoop_spec N f e 1 a he, one_mul]
  refine (ZMod.natCast_eq_natCast_iff' _ _ _).mp ?_
  rw [Nat.cast_pow, h1]
  simp

theorem prime_g : Nat.Prime 140017300428759581 := by
  refine lucas_primality _ 2 ?_ fun r hr hd => ?_
  · exact pow_of_loop (f := 64) (by decide +kernel) (by decide +kernel)
  · have h : r ∣ 2 ^ 2 * 5 * 27751 * 32941 * 7658369 := by
      have e : 140017300428759581 - 1 = 2 ^ 2 * 5 * 27751 * 32941 * 7658369 := by decide +kernel
      rwa [e] at hd
    have hr' : r = 2 ∨ r = 5 ∨ r = 27751 ∨ r = 32941 ∨ r = 7658369 := by
      have p2 : Nat.Prime 27751 := by norm_num
      have p3 : Nat.Prime 32941 := by norm_num
      have p4 : Nat.Prime 7658369 := by norm_num
      rcases hr.dvd_mul.mp h with h | h
      · rcases hr.dvd_mul.mp h with h | h
        · rcases hr.dvd_mul.mp h with h | h
          · rcases hr.dvd_mul.mp h with h | h
            · exact .inl ((Nat.prime_dvd_prime_iff_eq hr Nat.prime_two).mp (hr.dvd_of_dvd_pow h))
            · exact .inr (.inl ((Nat.prime_dvd_prime_iff_eq hr Nat.prime_five).mp h))
          · exact .inr (.inr (.inl ((Nat.prime_dvd_prime_iff_eq hr p2).mp h)))
        · exact .inr (.inr (.inr (.inl ((Nat.prime_dvd_prime_iff_eq hr p3).mp h))))
      · exact .inr (.inr (.inr (.inr ((Nat.prime_dvd_prime_iff_eq hr p4).mp h))))
    rcases hr' with rfl | rfl | rfl | rfl | rfl
    all_goals exact pow_of_loop_ne (f := 64) (by decide +kernel) (by decide +kernel)

theorem prime_f : Nat.Prime 29665056385498608818216895931 :=
  prime_minus (F := 140017300428759581) (R := 211867078530) (f := 57) (w := 11878179500972519944019100747) prime_g (by decide +kernel)
    (by decide +kernel) (by decide +kernel) (by decide +kernel) (by decide +kernel) (by decide +kernel)
    (by decide +kernel)

theorem prime_e : Nat.Prime 114756119850104151063524444795366676451879864596155278981 :=
  prime_plus (F := 29665056385498608818216895931) (R := 3868393788261978245633513522) (f := 95)
    (w := (23484786004044775610463052292977489575731023392270470130, 96640651860573769800235310619729633146553138629516707696)) prime_f (by decide +kernel) (by decide +kernel)
    (by decide +kernel) (by decide +kernel) (by decide +kernel) (by decide +kernel) (by decide +kernel)
    (by decide +kernel)

theorem prime_d : Nat.Prime 8996178453151867186640644914120558507643994643291955210719384786876817 :=
  prime_minus (F := 114756119850104151063524444795366676451879864596155278981) (R := 78393888403536) (f := 187) (w := 1702227624519095527214738498113455364704540410711520891044099530093280) prime_e (by decide +kernel)
    (by decide +kernel) (by decide +kernel) (by decide +kernel) (by decide +kernel) (by decide +kernel)
    (by decide +kernel)

theorem prime_c : Nat.Prime 1920512778107470297051284135413772115136848527535710350664567491939533123490247759565643789 :=
  prime_plus (F := 8996178453151867186640644914120558507643994643291955210719384786876817) (R := 213480956175853389870) (f := 233)
    (w := (223174374592530155239609674063293945667594917727474327747027676423073158125831961041526587, 361958416314271601337597804889461555316888024498033962210985895443372465982223422112588792)) prime_d (by decide +kernel) (by decide +kernel)
    (by decide +kernel) (by decide +kernel) (by decide +kernel) (by decide +kernel) (by decide +kernel)
    (by decide +kernel)

theorem prime_q : Nat.Prime 181709681073901722637330951972001133588410340171829515070372549795146003961539585716195755291692375963310293709091662304773755859649779 :=
  prime_plus (F := 1920512778107470297051284135413772115136848527535710350664567491939533123490247759565643789) (R := 94615189831209443835633378413417302280366020) (f := 300)
    (w := (8404916822235932061651563294943041793845982813560145032139716747588969700072229751813927778124819665378682570122257115083015045716081, 106571552148246090418825307360291581827348091027206155849420315998290122273967920806264691344285821284931337184335848183865240049042784)) prime_c (by decide +kernel) (by decide +kernel)
    (by decide +kernel) (by decide +kernel) (by decide +kernel) (by decide +kernel) (by decide +kernel)
    (by decide +kernel)

end Otrr.PrimeQ

namespace Otrr

/-- The order of the base point of Ed448 is prime. -/
theorem ed448_prime_q : Nat.Prime ed448.q := PrimeQ.prime_q

end Otrr
