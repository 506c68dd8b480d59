import Verif.Lemmas.Soundness
import Verif.Props.Smp
import Verif.Props.Smp4
import Verif.Props.Crypto
/-! C99: whoever makes valid proofs knows the secrets. -/

namespace Otrr.Props
open Otrr Otrr.Spec Otrr.SMP4

/-! ## OTRv4 -/

section otr4
variable {E E' : Env} (hc : SmpCurve E.curve) (he : E'.curve = E.curve)
include hc he

/-- C99 (OTRv4): two valid proofs of knowledge of the logarithm of `X` with one commitment and two challenges yield the logarithm. -/
theorem C99_log4 {tag : UInt8} {X : Point} (hX : GoodKey E.curve X) {c d c' d' : Nat} (h : ProvesLog4 E tag X c d)
    (h' : ProvesLog4 E' tag X c' d') (hcom : lin2 E.curve E.curve.G d X c = lin2 E.curve E.curve.G d' X c') (hne : c ≠ c') :
    X = Point.mul E.curve E.curve.G (extract E.curve.q c d c' d') := by
  have l1 : c < E.curve.q := by rw [h.2]; exact Nat.mod_lt _ hc.prime.pos
  have l2 : c' < E.curve.q := by rw [h'.2, ← he]; exact Nat.mod_lt _ (he ▸ hc.prime.pos)
  exact extract_point hc (inSub_G hc.good) hX.inSub hcom (by rwa [Nat.mod_eq_of_lt l1, Nat.mod_eq_of_lt l2])

/-- C99 (OTRv4): two valid proofs for `P` and `Q` with one commitment and two challenges yield `s` and `x` with `P = G3 * s` and
`Q = G * s + G2 * x`: the number that is compared. -/
theorem C99_pq4 {tag : UInt8} {G2 G3 P Q : Point} (h2 : GoodKey E.curve G2) (h3 : GoodKey E.curve G3) (hP : GoodKey E.curve P)
    (hQ : GoodKey E.curve Q) {c d5 d6 c' d5' d6' : Nat} (h : ProvesPQ4 E tag G2 G3 P Q c d5 d6) (h' : ProvesPQ4 E' tag G2 G3 P Q c' d5' d6')
    (hcom : lin2 E.curve G3 d5 P c = lin2 E.curve G3 d5' P c')
    (hcom' : Point.add E.curve (lin2 E.curve E.curve.G d5 G2 d6) (Point.mul E.curve Q c) =
      Point.add E.curve (lin2 E.curve E.curve.G d5' G2 d6') (Point.mul E.curve Q c')) (hne : c ≠ c') :
    P = Point.mul E.curve G3 (extract E.curve.q c d5 c' d5') ∧
    Q = lin2 E.curve E.curve.G (extract E.curve.q c d5 c' d5') G2 (extract E.curve.q c d6 c' d6') := by
  have l1 : c < E.curve.q := by rw [h.2]; exact Nat.mod_lt _ hc.prime.pos
  have l2 : c' < E.curve.q := by rw [h'.2, ← he]; exact Nat.mod_lt _ (he ▸ hc.prime.pos)
  have hm : c % E.curve.q ≠ c' % E.curve.q := by rwa [Nat.mod_eq_of_lt l1, Nat.mod_eq_of_lt l2]
  exact ⟨extract_point hc h3.inSub hP.inSub hcom hm, extract_point2 hc (inSub_G hc.good) h2.inSub hQ.inSub hcom' hm⟩

/-- C99 (OTRv4): two valid proofs for `X` and `R` with one commitment and two challenges yield `a` with `X = G * a` and `R = D * a`. -/
theorem C99_r4 {tag : UInt8} {X D R : Point} (hX : GoodKey E.curve X) (hD : OnCurve E.curve D ∧ Point.mul E.curve D E.curve.q = Point.identity)
    (hR : GoodKey E.curve R) {c d c' d' : Nat} (h : ProvesR4 E tag X D R c d) (h' : ProvesR4 E' tag X D R c' d')
    (hcom : lin2 E.curve E.curve.G d X c = lin2 E.curve E.curve.G d' X c') (hcom' : lin2 E.curve D d R c = lin2 E.curve D d' R c')
    (hne : c ≠ c') :
    X = Point.mul E.curve E.curve.G (extract E.curve.q c d c' d') ∧ R = Point.mul E.curve D (extract E.curve.q c d c' d') := by
  have l1 : c < E.curve.q := by rw [h.2]; exact Nat.mod_lt _ hc.prime.pos
  have l2 : c' < E.curve.q := by rw [h'.2, ← he]; exact Nat.mod_lt _ (he ▸ hc.prime.pos)
  have hm : c % E.curve.q ≠ c' % E.curve.q := by rwa [Nat.mod_eq_of_lt l1, Nat.mod_eq_of_lt l2]
  exact ⟨extract_point hc (inSub_G hc.good) hX.inSub hcom hm, extract_point hc hD hR.inSub hcom' hm⟩

/-- C99 (OTRv4): two ring signatures that verify, with the same commitments and different challenges, yield the secret of one of the three
keys.  The signatures may also be of different messages. -/
theorem C99_ring {A1 A2 A3 : Point} (h1 : GoodKey E.curve A1) (h2 : GoodKey E.curve A2) (h3 : GoodKey E.curve A3) {m m' : Bytes}
    {s s' : RingSignature} (h : RingVerifies E s A1 A2 A3 m) (h' : RingVerifies E' s' A1 A2 A3 m')
    (hcom : ringCommitments E.curve A1 A2 A3 s = ringCommitments E.curve A1 A2 A3 s')
    (hne : ringHash E s A1 A2 A3 m ≠ ringHash E' s' A1 A2 A3 m') :
    A1 = Point.mul E.curve E.curve.G (extract E.curve.q s.c1 s.r1 s'.c1 s'.r1) ∨
    A2 = Point.mul E.curve E.curve.G (extract E.curve.q s.c2 s.r2 s'.c2 s'.r2) ∨
    A3 = Point.mul E.curve E.curve.G (extract E.curve.q s.c3 s.r3 s'.c3 s'.r3) := by
  rw [h, h', he] at hne
  simp only [ringCommitments, List.cons.injEq, and_true] at hcom
  obtain ⟨k1, k2, k3⟩ := hcom
  by_cases e1 : s.c1 % E.curve.q = s'.c1 % E.curve.q
  · by_cases e2 : s.c2 % E.curve.q = s'.c2 % E.curve.q
    · refine .inr (.inr (extract_point hc (inSub_G hc.good) h3.inSub k3 fun e3 => hne ?_))
      exact Nat.ModEq.add (Nat.ModEq.add e1 e2) e3
    · exact .inr (.inl (extract_point hc (inSub_G hc.good) h2.inSub k2 e2))
  · exact .inl (extract_point hc (inSub_G hc.good) h1.inSub k1 e1)

end otr4

/-- The toy primitives with another hash function. -/
def otherEnv : Env := { toyEnv with
  shake := fun n d => toyHash n (d ++ [9])
  shake_len := fun n d => by simp [toyHash] }

/-- The hypotheses of the four theorems hold of concrete proofs. -/
example : SmpCurve toyEnv.curve ∧ otherEnv.curve = toyEnv.curve := ⟨toy_smpCurve, rfl⟩
example : GoodKey toyEnv.curve (Point.mul toyEnv.curve toyEnv.curve.G 2) ∧ Point.mul toyEnv.curve toyEnv.curve.G 2 = ⟨25, 28⟩ ∧
    ProvesLog4 toyEnv 1 ⟨25, 28⟩ 11 10 ∧ ProvesLog4 otherEnv 1 ⟨25, 28⟩ 5 9 ∧
    lin2 toyEnv.curve toyEnv.curve.G 10 ⟨25, 28⟩ 11 = lin2 toyEnv.curve toyEnv.curve.G 9 ⟨25, 28⟩ 5 ∧ extract toyEnv.curve.q 11 10 5 9 = 2 := by
  unfold ProvesLog4
  refine ⟨toyMul_good 2 (by decide +kernel), ?_, ⟨?_, ?_⟩, ⟨?_, ?_⟩, ?_, ?_⟩ <;> decide +kernel
example : let X : Point := ⟨25, 28⟩; let D : Point := ⟨36, 12⟩; let R : Point := ⟨35, 38⟩
    Point.verify toyEnv.curve X = .ok () ∧ Point.verify toyEnv.curve D = .ok () ∧ Point.verify toyEnv.curve R = .ok () ∧
    ProvesR4 toyEnv 7 X D R 12 7 ∧ ProvesR4 otherEnv 7 X D R 6 6 ∧
    lin2 toyEnv.curve toyEnv.curve.G 7 X 12 = lin2 toyEnv.curve toyEnv.curve.G 6 X 6 ∧ lin2 toyEnv.curve D 7 R 12 = lin2 toyEnv.curve D 6 R 6 ∧
    extract toyEnv.curve.q 12 7 6 6 = 2 := by
  unfold ProvesR4
  refine ⟨?_, ?_, ?_, ⟨?_, ?_⟩, ⟨?_, ?_⟩, ?_, ?_, ?_⟩ <;> decide +kernel
example : let G2 : Point := ⟨25, 28⟩; let G3 : Point := ⟨36, 12⟩; let P : Point := ⟨41, 39⟩; let Q : Point := ⟨36, 12⟩
    Point.verify toyEnv.curve G2 = .ok () ∧ Point.verify toyEnv.curve G3 = .ok () ∧ Point.verify toyEnv.curve P = .ok () ∧
    Point.verify toyEnv.curve Q = .ok () ∧ ProvesPQ4 toyEnv 5 G2 G3 P Q 7 3 4 ∧ ProvesPQ4 otherEnv 5 G2 G3 P Q 9 8 5 ∧
    lin2 toyEnv.curve G3 3 P 7 = lin2 toyEnv.curve G3 8 P 9 ∧
    Point.add toyEnv.curve (lin2 toyEnv.curve toyEnv.curve.G 3 G2 4) (Point.mul toyEnv.curve Q 7) =
      Point.add toyEnv.curve (lin2 toyEnv.curve toyEnv.curve.G 8 G2 5) (Point.mul toyEnv.curve Q 9) ∧
    extract toyEnv.curve.q 7 3 9 8 = 4 ∧ extract toyEnv.curve.q 7 4 9 5 = 6 := by
  unfold ProvesPQ4
  refine ⟨?_, ?_, ?_, ?_, ⟨?_, ?_⟩, ⟨?_, ?_⟩, ?_, ?_, ?_, ?_⟩ <;> decide +kernel
example : let A1 : Point := ⟨30, 21⟩; let A2 : Point := ⟨36, 12⟩; let A3 : Point := ⟨13, 21⟩
    Point.verify toyEnv.curve A1 = .ok () ∧ Point.verify toyEnv.curve A2 = .ok () ∧ Point.verify toyEnv.curve A3 = .ok () ∧
    RingVerifies toyEnv ⟨0, 1, 3, 6, 4, 7⟩ A1 A2 A3 [1] ∧ RingVerifies otherEnv ⟨9, 8, 3, 6, 4, 7⟩ A1 A2 A3 [1] ∧
    ringCommitments toyEnv.curve A1 A2 A3 ⟨0, 1, 3, 6, 4, 7⟩ = ringCommitments toyEnv.curve A1 A2 A3 ⟨9, 8, 3, 6, 4, 7⟩ ∧
    ringHash toyEnv ⟨0, 1, 3, 6, 4, 7⟩ A1 A2 A3 [1] ≠ ringHash otherEnv ⟨9, 8, 3, 6, 4, 7⟩ A1 A2 A3 [1] ∧
    extract toyEnv.curve.q 0 1 9 8 = 5 := by
  unfold RingVerifies
  refine ⟨?_, ?_, ?_, ?_, ?_, ?_, ?_, ?_⟩ <;> decide +kernel

/-! ## OTRv3

A challenge `c` with its response `d` belongs to the commitment from which `ProvesLog`, `ProvesPQ` and `ProvesR` compute the challenge.
Elements are only checked to be in range, so that the sign remains open: the squares are equal. -/

section otr3
variable {G : DHGroup} (hG : SmpGroup G) (hs : SafePrime G)
include hG hs

omit hG hs in
theorem cast_ne {v : Nat} (h : v % G.p ≠ 0) : (v : ZMod G.p) ≠ 0 :=
  fun h0 => h (Nat.mod_eq_zero_of_dvd ((ZMod.natCast_eq_zero_iff _ _).mp h0))

omit hs in
theorem g_ne : (G.g : ZMod G.p) ≠ 0 :=
  cast_ne (by rw [Nat.mod_eq_of_lt hG.g_lt]; have := hG.two_le; omega)

omit hs in
theorem elem_ne {v : Nat} (h : Element G v) : (v : ZMod G.p) ≠ 0 := SMP.elem_ne_zero hG h

/-- C99 (OTRv3): the responses to two challenges for one commitment, in proofs of knowledge of the logarithm of `X`, yield the logarithm of `X`
or of `-X`. -/
theorem C99_log3 {X : Nat} (hX : Element G X) {c d c' d' : Nat}
    (hcom : G.g ^ d * X ^ c % G.p = G.g ^ d' * X ^ c' % G.p) (hne : c % G.q ≠ c' % G.q) :
    X ^ 2 % G.p = (G.g ^ extract G.q c d c' d') ^ 2 % G.p := by
  have := SMP.extract_num hG hs (g_ne hG) (b := 1) (e := 0) (e' := 0) (by
    have := Fact.mk hG.prime
    simp) (elem_ne hG hX) (by simpa using hcom) hne
  simpa using this

/-- C99 (OTRv3): the responses to two challenges for one commitment, in proofs for `P` and `Q`, yield `s` and `x` with `P = g3^s` and
`Q = g^s g2^x`, up to the sign. -/
theorem C99_pq3 {g2 g3 P Q : Nat} (h2 : g2 % G.p ≠ 0) (h3 : g3 % G.p ≠ 0) (hP : Element G P) (hQ : Element G Q)
    {c d5 d6 c' d5' d6' : Nat}
    (hcom : g3 ^ d5 * P ^ c % G.p = g3 ^ d5' * P ^ c' % G.p)
    (hcom' : G.g ^ d5 * g2 ^ d6 * Q ^ c % G.p = G.g ^ d5' * g2 ^ d6' * Q ^ c' % G.p) (hne : c % G.q ≠ c' % G.q) :
    P ^ 2 % G.p = (g3 ^ extract G.q c d5 c' d5') ^ 2 % G.p ∧
    Q ^ 2 % G.p = (G.g ^ extract G.q c d5 c' d5' * g2 ^ extract G.q c d6 c' d6') ^ 2 % G.p := by
  constructor
  · have := SMP.extract_num hG hs (cast_ne h3) (b := 1) (e := 0) (e' := 0) (by
      have := Fact.mk hG.prime
      simp) (elem_ne hG hP) (by simpa using hcom) hne
    simpa using this
  · exact SMP.extract_num hG hs (g_ne hG) (cast_ne h2) (elem_ne hG hQ) hcom' hne

/-- C99 (OTRv3): the responses to two challenges for one commitment, in proofs for `X` and `R`, yield `a` with `X = g^a` and `R = k^a`, up to the
sign. -/
theorem C99_r3 {X k R : Nat} (hX : Element G X) (hk : k % G.p ≠ 0) (hR : Element G R) {c d c' d' : Nat}
    (hcom : G.g ^ d * X ^ c % G.p = G.g ^ d' * X ^ c' % G.p)
    (hcom' : k ^ d * R ^ c % G.p = k ^ d' * R ^ c' % G.p) (hne : c % G.q ≠ c' % G.q) :
    X ^ 2 % G.p = (G.g ^ extract G.q c d c' d') ^ 2 % G.p ∧ R ^ 2 % G.p = (k ^ extract G.q c d c' d') ^ 2 % G.p := by
  refine ⟨C99_log3 hG hs hX hcom hne, ?_⟩
  have := SMP.extract_num hG hs (cast_ne hk) (b := 1) (e := 0) (e' := 0) (by
    have := Fact.mk hG.prime
    simp) (elem_ne hG hR) (by simpa using hcom') hne
  simpa using this

end otr3

/-- Challenges of OTRv3 are hashes of 32 bytes: they differ modulo the order of the group of the code if they differ. -/
theorem C99_challenge3 (E E' : Env) (x x' : Bytes) (h : beNat (E.sha256 x) ≠ beNat (E'.sha256 x')) :
    beNat (E.sha256 x) % dh1536.q ≠ beNat (E'.sha256 x') % dh1536.q := by
  have big : 256 ^ 32 ≤ dh1536.q := by decide +kernel
  have l1 := beNat_lt (E.sha256 x)
  have l2 := beNat_lt (E'.sha256 x')
  rw [E.sha256_len] at l1
  rw [E'.sha256_len] at l2
  rwa [Nat.mod_eq_of_lt (by omega), Nat.mod_eq_of_lt (by omega)]

/-- The group of the code is of this form, and so is the toy group; there, 7 and 9 are responses to the challenges 3 and 2, for
`X = 2 ^ 2`. -/
example : SafePrime dh1536 ∧ SafePrime smallEnv.dh ∧ SmpGroup smallEnv.dh ∧ Element smallEnv.dh 4 ∧
    smallEnv.dh.g ^ 7 * 4 ^ 3 % smallEnv.dh.p = smallEnv.dh.g ^ 9 * 4 ^ 2 % smallEnv.dh.p ∧ 3 % smallEnv.dh.q ≠ 2 % smallEnv.dh.q ∧
    extract smallEnv.dh.q 3 7 2 9 = 2 := by
  unfold SafePrime Element
  exact ⟨by decide +kernel, by decide +kernel, toy_smpGroup, by decide +kernel, by decide +kernel, by decide +kernel, by decide +kernel⟩

end Otrr.Props
