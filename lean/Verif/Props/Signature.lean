import Verif.Lemmas.Smp4Run
import Verif.Props.Smp4
import Mathlib.Data.ZMod.Basic
import Mathlib.Algebra.Field.ZMod
/-! C119: a signature of a profile cannot be changed, and does not expose the identity key. -/

namespace Otrr.Props
open Otrr Otrr.Spec

/-- The challenge of a signature with first part `r` under the key `pk` for `m`: what RFC 8032 hashes. -/
def edChallenge (E : Env) (pk : Point) (r m : Bytes) : Nat :=
  leNat (E.shake 114 ("SigEd448".toUTF8.toList ++ [0, 0] ++ r ++ pk.encode ++ m))

theorem dom4_eq : "SigEd448".toUTF8.toList ++ [0, 0] = dom4 := by decide +kernel

/-- What an accepted signature means: its second part is below `q`, and the equation of Ed448 holds. -/
theorem edValidate_means {E : Env} {pk : Point} {sig : EdSignature} {m : Bytes} (h : edValidate E pk sig m = .ok ()) :
    ∃ R, Point.decode E.curve sig.r = .ok R ∧ Point.verify E.curve R = .ok () ∧ leNat sig.s < E.curve.q ∧
      (Point.mul E.curve E.curve.G (leNat sig.s)).encode =
        (Point.add E.curve R (Point.mul E.curve pk (edChallenge E pk sig.r m))).encode := by
  unfold edValidate at h
  simp only [Res.bind_eq_ok] at h
  obtain ⟨R, h1, u, h2, h3⟩ := h
  split at h3
  · simp at h3
  · rename_i hs
    refine ⟨R, h1, h2, by omega, ?_⟩
    unfold edChallenge
    rw [dom4_eq]
    exact (compareBytes_ok_iff.mp h3).1

theorem mulG_inj {E : Env} (hc : SmpCurve E.curve) {a b : Nat} (h : Point.mul E.curve E.curve.G a = Point.mul E.curve E.curve.G b) :
    a % E.curve.q = b % E.curve.q := by
  have hf := Fact.mk hc.good.field.prime
  have hg := hc.good.field.good
  obtain ⟨A, hA⟩ := OnCurve.rep hc.good.base
  have hq : E.curve.q • A = 0 := (hA.mul E.curve.q).eq_iff rep_identity |>.mp hc.good.order
  have := Fact.mk hc.prime
  have ho : addOrderOf A = E.curve.q := addOrderOf_eq_prime hq fun h0 => hc.base_ne ((hA.eq_iff rep_identity).mpr h0)
  have h' := ((hA.mul a).eq_iff (hA.mul b)).mp h
  have := nsmul_eq_nsmul_iff_modEq.mp h'
  rwa [ho] at this

/-- C119: a signature cannot be changed in its second part: at most one is accepted with a given first part, for a given key and text. -/
theorem C119_unique {E : Env} (hc : SmpCurve E.curve) {pk : Point} {r s s' m : Bytes} (hl : s.length = s'.length)
    (h : edValidate E pk ⟨r, s⟩ m = .ok ()) (h' : edValidate E pk ⟨r, s'⟩ m = .ok ()) : s = s' := by
  obtain ⟨R, h1, -, h3, h4⟩ := edValidate_means h
  obtain ⟨R', h1', -, h3', h4'⟩ := edValidate_means h'
  simp only at h1 h1' h3 h3' h4 h4'
  rw [h1] at h1'
  cases h1'
  have e := encode_inj hc.good.field (mulG_good hc.good _).1 (mulG_good hc.good _).1 (h4.trans h4'.symm)
  have := mulG_inj hc e
  rw [Nat.mod_eq_of_lt h3, Nat.mod_eq_of_lt h3'] at this
  exact leNat_inj hl this

/-- C119: a client that signs different texts uses different first parts, unless the hashes of the texts, with the secret prefix of the key, which are named, are
the same number modulo `q`. -/
theorem C119_nonce {E : Env} (hc : SmpCurve E.curve) (k : EdDSAKeyPair) {m m' : Bytes} (hne : m ≠ m') (h : (k.sign E m).r = (k.sign E m').r) :
    let pre := "SigEd448".toUTF8.toList ++ [0, 0] ++ (E.shake 114 k.sym).drop 57
    pre ++ m ≠ pre ++ m' ∧ leNat (E.shake 114 (pre ++ m)) % E.curve.q = leNat (E.shake 114 (pre ++ m')) % E.curve.q := by
  intro pre
  refine ⟨fun e => hne (List.append_cancel_left e), ?_⟩
  have e := encode_inj hc.good.field (mulG_good hc.good _).1 (mulG_good hc.good _).1 h
  have := mulG_inj hc e
  rwa [← dom4_eq] at this

/-- C119, why this matters: two accepted signatures with the same first part, for texts with different challenges, give away the private key: it is
`(s - s') / (c - c')` modulo `q`. -/
theorem C119_exposed {E : Env} (hc : SmpCurve E.curve) {a : Nat} {r s s' m m' : Bytes} (hr : r.length = 57)
    (h : edValidate E (Point.mul E.curve E.curve.G a) ⟨r, s⟩ m = .ok ())
    (h' : edValidate E (Point.mul E.curve E.curve.G a) ⟨r, s'⟩ m' = .ok ())
    (hch : edChallenge E (Point.mul E.curve E.curve.G a) r m % E.curve.q ≠ edChallenge E (Point.mul E.curve E.curve.G a) r m' % E.curve.q) :
    have := Fact.mk hc.prime
    (a : ZMod E.curve.q) = ((leNat s : ZMod E.curve.q) - leNat s') *
      ((edChallenge E (Point.mul E.curve E.curve.G a) r m : ZMod E.curve.q) - edChallenge E (Point.mul E.curve E.curve.G a) r m')⁻¹ := by
  intro hq
  obtain ⟨R, h1, h2, h3, h4⟩ := edValidate_means h
  obtain ⟨R', h1', -, h3', h4'⟩ := edValidate_means h'
  simp only at h1 h1' h3 h3' h4 h4'
  rw [h1] at h1'
  cases h1'
  generalize edChallenge E (Point.mul E.curve E.curve.G a) r m = c at *
  generalize edChallenge E (Point.mul E.curve E.curve.G a) r m' = c' at *
  have hf := Fact.mk hc.good.field.prime
  have hg := hc.good.field.good
  obtain ⟨A, hA⟩ := OnCurve.rep hc.good.base
  have hqA : E.curve.q • A = 0 := (hA.mul E.curve.q).eq_iff rep_identity |>.mp hc.good.order
  have ho : addOrderOf A = E.curve.q := addOrderOf_eq_prime hqA fun h0 => hc.base_ne ((hA.eq_iff rep_identity).mpr h0)
  have hR : OnCurve E.curve R := (Point.decode_spec hc.good.field hr h1).1
  obtain ⟨B, hB⟩ := OnCurve.rep hR
  have e1 := encode_inj hc.good.field (hA.mul _).onCurve (hB.add ((hA.mul a).mul c)).onCurve h4
  have e2 := encode_inj hc.good.field (hA.mul _).onCurve (hB.add ((hA.mul a).mul c')).onCurve h4'
  have f1 := ((hA.mul _).eq_iff (hB.add ((hA.mul a).mul c))).mp e1
  have f2 := ((hA.mul _).eq_iff (hB.add ((hA.mul a).mul c'))).mp e2
  have f3 : (leNat s + c' * a) • A = (leNat s' + c * a) • A := by
    rw [add_smul, add_smul, mul_smul, mul_smul, f1, f2]
    abel
  have f4 := nsmul_eq_nsmul_iff_modEq.mp f3
  rw [ho] at f4
  have f5 := (ZMod.natCast_eq_natCast_iff _ _ _).mpr f4
  push_cast at f5
  have hne : (c : ZMod E.curve.q) - c' ≠ 0 := by
    intro e
    exact hch ((ZMod.natCast_eq_natCast_iff _ _ _).mp (sub_eq_zero.mp e))
  rw [eq_mul_inv_iff_mul_eq₀ hne]
  linear_combination -f5

/-! ## The hypotheses are met -/

/-- The curve Ed448 has the property asked for, and the toy curve too. -/
example : SmpCurve ed448 := ed448_smpCurve

/-- The toy curve is so small that a key pair signs the different texts `[1]` and `[1, 6]` with the same first part and different challenges; both signatures are
accepted, so that the private key is exposed. -/
example : let k := EdDSAKeyPair.generate toyEnv [7]
    edValidate toyEnv k.pub (k.sign toyEnv [1]) [1] = .ok () ∧ edValidate toyEnv k.pub (k.sign toyEnv [1, 6]) [1, 6] = .ok () ∧
      (k.sign toyEnv [1]).r = (k.sign toyEnv [1, 6]).r ∧ (k.sign toyEnv [1]).r.length = 57 ∧
      edChallenge toyEnv k.pub (k.sign toyEnv [1]).r [1] % toyEnv.curve.q ≠ edChallenge toyEnv k.pub (k.sign toyEnv [1]).r [1, 6] % toyEnv.curve.q ∧
      SmpCurve toyEnv.curve :=
  ⟨by decide +kernel, by decide +kernel, by decide +kernel, by decide +kernel, by decide +kernel, toy_smpCurve⟩

end Otrr.Props
