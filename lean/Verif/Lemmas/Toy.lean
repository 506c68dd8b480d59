import Verif.Spec.Toy
import Verif.Lemmas.Ed448Order
import Mathlib.Tactic.NormNum.Prime
/-! The toy curve and the curve of the code satisfy the hypotheses used in theorems. -/

namespace Otrr

open Spec

theorem toy_goodField : GoodField toyCurve where
  prime := by norm_num [toyCurve]
  mod4 := by decide
  small := by decide
  nonsquare := by
    intro r h
    have h1 : (r ^ 2 - 5) % 43 = 0 := Int.emod_eq_zero_of_dvd h
    have h2 : (r ^ 2 - 5) % 43 = ((r % 43) ^ 2 - 5) % 43 := by
      rw [Int.sub_emod, Int.sub_emod ((r % 43) ^ 2), pow_two, pow_two, Int.mul_emod, Int.mul_emod (r % 43), Int.emod_emod]
    rw [h2] at h1
    have h3 : 0 ≤ r % 43 := Int.emod_nonneg _ (by decide)
    have h4 : r % 43 < 43 := Int.emod_lt_of_pos _ (by decide)
    generalize r % 43 = k at *
    interval_cases k <;> omega

theorem toy_goodCurve : GoodCurve toyCurve where
  field := toy_goodField
  base := ⟨by decide, by decide, by decide⟩
  order := by decide +kernel
  odd := by decide
  big := by decide
  fits := by decide

theorem ed448_goodCurve : GoodCurve ed448 where
  field := ed448_goodField
  base := ed448_base
  order := ed448_order
  odd := by decide +kernel
  big := by decide +kernel
  fits := by decide +kernel

end Otrr
