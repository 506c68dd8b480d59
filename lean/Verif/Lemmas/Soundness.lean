import Verif.Spec.Soundness
import Verif.Lemmas.Smp
import Verif.Lemmas.Smp4
/-! Lemmas about the soundness of proofs. -/

namespace Otrr
open Spec

/-- The secret is the quotient. -/
theorem extract_spec {M : Type*} [AddCommMonoid M] {q : Nat} (hq : q.Prime) {B1 B2 X : M} (h1 : q • B1 = 0) (h2 : q • B2 = 0) (h3 : q • X = 0)
    {c d1 d2 c' d1' d2' : Nat} (h : d1 • B1 + d2 • B2 + c • X = d1' • B1 + d2' • B2 + c' • X) (hne : c % q ≠ c' % q) :
    X = extract q c d1 c' d1' • B1 + extract q c d2 c' d2' • B2 := by
  have pos := hq.pos
  have kill : ∀ {Y : M}, q • Y = 0 → ∀ n, (n + (q - n % q)) • Y = 0 := by
    intro Y hY n
    have : n + (q - n % q) = (n / q + 1) * q := by
      have := Nat.mod_lt n pos
      have := Nat.div_add_mod n q
      rw [Nat.add_mul, Nat.one_mul, Nat.mul_comm]
      omega
    rw [this, mul_smul, hY, smul_zero]
  have modq : ∀ {Y : M}, q • Y = 0 → ∀ n, (n % q) • Y = n • Y := by
    intro Y hY n
    conv_rhs => rw [← Nat.div_add_mod n q, add_smul, mul_comm, mul_smul, hY, smul_zero, zero_add]
  have key : (d1 + (q - d1' % q)) • B1 + (d2 + (q - d2' % q)) • B2 = (c' + (q - c % q)) • X := by
    have := congrArg (fun z => z + ((q - d1' % q) • B1 + (q - d2' % q) • B2 + (q - c % q) • X)) h
    have e1 : d1 • B1 + d2 • B2 + c • X + ((q - d1' % q) • B1 + (q - d2' % q) • B2 + (q - c % q) • X) =
        (d1 + (q - d1' % q)) • B1 + (d2 + (q - d2' % q)) • B2 + (c + (q - c % q)) • X := by simp only [add_smul]; abel
    have e2 : d1' • B1 + d2' • B2 + c' • X + ((q - d1' % q) • B1 + (q - d2' % q) • B2 + (q - c % q) • X) =
        (d1' + (q - d1' % q)) • B1 + (d2' + (q - d2' % q)) • B2 + (c' + (q - c % q)) • X := by simp only [add_smul]; abel
    rw [e1, e2, kill h1, kill h2, kill h3, add_zero, zero_add, zero_add] at this
    exact this
  generalize hu : c' + (q - c % q) = u at *
  have u0 : u % q ≠ 0 := by
    intro h0
    apply hne
    have l1 := Nat.mod_lt c pos
    have l2 := Nat.mod_lt c' pos
    rw [← hu, Nat.add_mod] at h0
    by_cases z : c % q = 0
    · rw [z, Nat.sub_zero, Nat.mod_self, Nat.add_zero, Nat.mod_mod] at h0
      omega
    · rw [Nat.mod_eq_of_lt (a := q - c % q) (by omega)] at h0
      have := Nat.div_add_mod (c' % q + (q - c % q)) q
      rw [h0] at this
      have hk : (c' % q + (q - c % q)) / q < 2 := by
        rw [Nat.div_lt_iff_lt_mul pos]; omega
      generalize (c' % q + (q - c % q)) / q = k at *
      have : k = 0 ∨ k = 1 := by omega
      rcases this with rfl | rfl <;> omega
  have inv : (u ^ (q - 2) * u) % q = 1 := by
    have := Fact.mk hq
    have hz : (u : ZMod q) ≠ 0 := fun hz => u0 (Nat.mod_eq_zero_of_dvd ((ZMod.natCast_eq_zero_iff _ _).mp hz))
    have := ZMod.pow_card_sub_one_eq_one hz
    have e : u ^ (q - 2) * u = u ^ (q - 1) := by
      rw [← Nat.pow_succ]; congr 1; have := hq.two_le; omega
    rw [e]
    have h' : ((u ^ (q - 1) : Nat) : ZMod q) = (1 : Nat) := by push_cast; exact this
    rw [ZMod.natCast_eq_natCast_iff'] at h'
    rw [h', Nat.mod_eq_of_lt hq.one_lt]
  calc X = (u ^ (q - 2) * u) • X := by rw [← modq h3, inv, one_smul]
    _ = u ^ (q - 2) • ((d1 + (q - d1' % q)) • B1 + (d2 + (q - d2' % q)) • B2) := by rw [mul_smul, key]
    _ = _ := by
      unfold extract
      rw [modq h1, modq h2, hu, smul_add, ← mul_smul, ← mul_smul, Nat.mul_comm, Nat.mul_comm (u ^ (q - 2))]

theorem extract_one {M : Type*} [AddCommMonoid M] {q : Nat} (hq : q.Prime) {B X : M} (h1 : q • B = 0) (h3 : q • X = 0)
    {c d c' d' : Nat} (h : d • B + c • X = d' • B + c' • X) (hne : c % q ≠ c' % q) : X = extract q c d c' d' • B := by
  have := extract_spec hq (B2 := 0) h1 (smul_zero _) h3 (d2 := 0) (d2' := 0) (by simpa using h) hne
  simpa using this

namespace SMP4
open Edwards

section
variable {c : Curve} (hc : SmpCurve c)
include hc

/-- One base. -/
theorem extract_point {B X : Point} (hB : InSub c B) (hX : InSub c X) {ch d ch' d' : Nat}
    (h : lin2 c B d X ch = lin2 c B d' X ch') (hne : ch % c.q ≠ ch' % c.q) : X = Point.mul c B (extract c.q ch d ch' d') := by
  have := Fact.mk hc.good.field.prime
  have := hc.good.field.good
  obtain ⟨b, hb, kb⟩ := hB.rep
  obtain ⟨x, hx, kx⟩ := hX.rep
  refine (hx.eq_iff (hb.mul _)).mpr (extract_one hc.prime kb kx ?_ hne)
  exact (((hb.mul _).add (hx.mul _)).eq_iff ((hb.mul _).add (hx.mul _))).mp h

/-- Two bases. -/
theorem extract_point2 {B B' X : Point} (hB : InSub c B) (hB' : InSub c B') (hX : InSub c X) {ch d e ch' d' e' : Nat}
    (h : Point.add c (lin2 c B d B' e) (Point.mul c X ch) = Point.add c (lin2 c B d' B' e') (Point.mul c X ch'))
    (hne : ch % c.q ≠ ch' % c.q) : X = lin2 c B (extract c.q ch d ch' d') B' (extract c.q ch e ch' e') := by
  have := Fact.mk hc.good.field.prime
  have := hc.good.field.good
  obtain ⟨b, hb, kb⟩ := hB.rep
  obtain ⟨b', hb', kb'⟩ := hB'.rep
  obtain ⟨x, hx, kx⟩ := hX.rep
  refine (hx.eq_iff ((hb.mul _).add (hb'.mul _))).mpr (extract_spec hc.prime kb kb' kx ?_ hne)
  exact ((((hb.mul _).add (hb'.mul _)).add (hx.mul _)).eq_iff (((hb.mul _).add (hb'.mul _)).add (hx.mul _))).mp h

end
end SMP4

namespace SMP

section
variable {G : DHGroup} (hG : SmpGroup G) (hs : SafePrime G)
include hG hs

/-- Squares are in the subgroup. -/
theorem sq_order {v : Nat} (hv : (v : ZMod G.p) ≠ 0) : ((v : ZMod G.p) ^ 2) ^ G.q = 1 := by
  have := Fact.mk hG.prime
  have h := ZMod.pow_card_sub_one_eq_one hv
  rw [← pow_mul, ← h]
  congr 1
  rw [hs]; omega

/-- Two bases, up to the sign. -/
theorem extract_num {a b x : Nat} (ha : (a : ZMod G.p) ≠ 0) (hb : (b : ZMod G.p) ≠ 0) (hx : (x : ZMod G.p) ≠ 0) {c d e c' d' e' : Nat}
    (h : a ^ d * b ^ e * x ^ c % G.p = a ^ d' * b ^ e' * x ^ c' % G.p) (hne : c % G.q ≠ c' % G.q) :
    x ^ 2 % G.p = (a ^ extract G.q c d c' d' * b ^ extract G.q c e c' e') ^ 2 % G.p := by
  have h := (ZMod.natCast_eq_natCast_iff' _ _ _).mpr h
  push_cast at h
  have key : (x : ZMod G.p) ^ 2 = ((a : ZMod G.p) ^ 2) ^ extract G.q c d c' d' * ((b : ZMod G.p) ^ 2) ^ extract G.q c e c' e' := by
    have := @extract_spec (Additive (ZMod G.p)) _ G.q hG.prime_q (.ofMul ((a : ZMod G.p) ^ 2)) (.ofMul ((b : ZMod G.p) ^ 2))
      (.ofMul ((x : ZMod G.p) ^ 2)) (congrArg Additive.ofMul (sq_order hG hs ha)) (congrArg Additive.ofMul (sq_order hG hs hb))
      (congrArg Additive.ofMul (sq_order hG hs hx)) c d e c' d' e' ?_ hne
    · exact congrArg Additive.toMul this
    · refine congrArg Additive.ofMul (show ((a : ZMod G.p) ^ 2) ^ d * ((b : ZMod G.p) ^ 2) ^ e * ((x : ZMod G.p) ^ 2) ^ c =
        ((a : ZMod G.p) ^ 2) ^ d' * ((b : ZMod G.p) ^ 2) ^ e' * ((x : ZMod G.p) ^ 2) ^ c' from ?_)
      rw [← pow_mul, ← pow_mul, ← pow_mul, ← pow_mul, ← pow_mul, ← pow_mul]
      simp only [Nat.mul_comm 2, pow_mul]
      rw [← mul_pow, ← mul_pow, h, mul_pow, mul_pow]
  apply (ZMod.natCast_eq_natCast_iff' _ _ _).mp
  push_cast
  rw [key, mul_pow]
  ring

end
end SMP

end Otrr
