import Verif.Lemmas.Ed448Group
import Mathlib.GroupTheory.OrderOfElement
/-! Lemmas about comparisons, EdDSA and ring signatures. -/

namespace Otrr

open Spec Edwards

/-! ## Comparisons -/

theorem allZero_iff {b : Bytes} : allZero b = true ↔ ∀ x ∈ b, x = 0 := by
  simp [allZero]

theorem anyNonzero_iff {b : Bytes} : anyNonzero b = true ↔ NonZero b := by
  unfold anyNonzero NonZero
  rw [Bool.not_eq_true', ← Bool.not_eq_true, allZero_iff]
  simp

theorem verifyNonzero_ok {b : Bytes} (h : anyNonzero b = true) : verifyNonzero b = .ok () := by
  simp [verifyNonzero, h]

theorem compareBytes_self {b : Bytes} (h : anyNonzero b = true) : compareBytes b b = .ok () := by
  simp [compareBytes, verifyNonzero_ok h]

theorem compareBytes_ok_iff {a b : Bytes} : compareBytes a b = .ok () ↔ a = b ∧ anyNonzero a = true := by
  unfold compareBytes verifyNonzero
  by_cases h1 : anyNonzero a = true
  · by_cases h2 : anyNonzero b = true
    · by_cases h3 : a = b <;> simp [h1, h2, h3]
    · simp only [h1, if_true, Res.bind_ok]
      simp only [h2, if_false, Res.bind_err, Bool.false_eq_true]
      constructor
      · intro h; cases h
      · rintro ⟨rfl, -⟩; exact absurd h1 h2
  · simp [h1]

theorem compareBytes_ne_panic (a b : Bytes) : compareBytes a b ≠ .panic := by
  unfold compareBytes verifyNonzero
  by_cases h1 : anyNonzero a = true <;> by_cases h2 : anyNonzero b = true <;> by_cases h3 : a = b <;>
    simp [h1, h2, h3]

theorem diffFold_eq (d : UInt8) : diffFold d = if d = 0 then 0 else 1 := by
  have key : ∀ n : Fin 256, diffFold (UInt8.ofNat n.val) = if UInt8.ofNat n.val = 0 then 0 else 1 := by
    decide +kernel
  have := key ⟨d.toNat, d.toNat_lt⟩
  simpa using this

theorem or_eq_zero_iff (a b : UInt8) : a ||| b = 0 ↔ a = 0 ∧ b = 0 := by
  rw [← UInt8.toNat_inj, ← UInt8.toNat_inj, ← UInt8.toNat_inj, UInt8.toNat_or]
  exact Nat.or_eq_zero_iff

theorem diffAcc_eq_zero {a b : Bytes} (h : a.length = b.length) (acc : UInt8) :
    diffAcc a b acc = 0 ↔ acc = 0 ∧ a = b := by
  induction a generalizing b acc with
  | nil =>
    cases b with
    | nil => simp [diffAcc]
    | cons _ _ => simp at h
  | cons x a ih =>
    cases b with
    | nil => simp at h
    | cons y b =>
      rw [diffAcc, ih (by simpa using h), or_eq_zero_iff, UInt8.xor_eq_zero_iff]
      simp only [List.cons.injEq]
      tauto

theorem diffBytes_eq {a b : Bytes} (h : a.length = b.length) (ha : anyNonzero a = true)
    (hb : anyNonzero b = true) : diffBytes a b = .ok (if a = b then 0 else 1) := by
  have hd := diffFold_eq (diffAcc a b 0)
  have hz := diffAcc_eq_zero h 0
  by_cases e : a = b
  · have : diffAcc a b 0 = 0 := hz.mpr ⟨rfl, e⟩
    rw [if_pos this] at hd
    simp only [diffBytes, Res.assert, ha, hb, h, hd, if_pos e, if_true, Res.bind_ok, decide_true]
    rfl
  · have : diffAcc a b 0 ≠ 0 := fun c => e (hz.mp c).2
    rw [if_neg this] at hd
    simp only [diffBytes, Res.assert, ha, hb, h, hd, if_neg e, if_true, Res.bind_ok, decide_true]
    rfl

/-! ## Keys -/

theorem verify_iff {c : Curve} {P : Point} (hP : OnCurve c P) :
    Point.verify c P = .ok () ↔ GoodKey c P := by
  unfold Point.verify
  constructor
  · intro h
    split at h
    · cases h
    · rename_i hn
      simp only [Bool.or_eq_true, Bool.not_eq_true', not_or, Bool.not_eq_true, Bool.not_eq_false] at hn
      refine ⟨hP, ?_, ?_⟩
      · intro e
        have := Point.isIdentity_iff.mpr e
        rw [this] at hn
        exact absurd hn.1.1.1 (by decide)
      · exact Point.isIdentity_iff.mp hn.2
  · intro h
    rw [if_neg]
    have h1 : P.isIdentity = false := by
      by_contra hc
      exact h.ne (Point.isIdentity_iff.mp (by simpa using hc))
    have h2 : (Point.mul c P c.q).isIdentity = true := Point.isIdentity_iff.mpr h.order
    have h3 := hP.x_lt
    have h4 := hP.y_lt
    simp [h1, h2, h3, h4]

theorem leNat_eq_zero {l : Bytes} (h : allZero l = true) : leNat l = 0 := by
  induction l with
  | nil => rfl
  | cons b l ih =>
    rw [allZero_iff] at h
    have hb := h b (by simp)
    have hl := ih (allZero_iff.mpr fun x hx => h x (by simp [hx]))
    simp [leNat, hb, hl]

/-- A point of odd order has an encoding that is not all zero. -/
theorem encode_nonzero {c : Curve} (hc : GoodCurve c) {P : Point} (hP : OnCurve c P)
    (ho : Point.mul c P c.q = Point.identity) : anyNonzero P.encode = true := by
  have := Fact.mk hc.field.prime
  have := hc.field.good
  by_contra hz
  have hz' : allZero P.encode = true := by simpa [anyNonzero] using hz
  have hy0 : P.y = 0 := by
    have h1 : allZero (leBytes 56 P.y) = true := by
      rw [allZero_iff] at hz' ⊢
      intro x hx
      exact hz' x (by simp [Point.encode, hx])
    have h2 := leNat_eq_zero h1
    rwa [leNat_leBytes_of_lt (Nat.lt_trans hP.y_lt hc.field.small)] at h2
  obtain ⟨A, hA⟩ := OnCurve.rep hP
  have hAy : A.y = 0 := by rw [← hA.2.2.2, hy0]; simp
  have hAx : A.x ^ 2 = 1 := by
    have := A.on
    rw [hAy] at this
    simpa using this
  have h2x : (A + A).x = 0 := by rw [add_x, hAy]; simp
  have h2y : (A + A).y = -1 := by
    rw [add_y, hAy]
    simp only [mul_zero, zero_sub, sub_zero, div_one, neg_inj]
    rw [← hAx]; ring
  have h4 : 4 • A = 0 := by
    have : 4 • A = (A + A) + (A + A) := by
      rw [show (4 : Nat) = 2 + 2 from rfl, add_smul, two_smul]
    rw [this]
    ext
    · rw [add_x, h2x]; simp [zero_x]
    · rw [add_y, h2x, h2y]; simp [zero_y]
  have hq : c.q • A = 0 := (hA.mul c.q).eq_iff rep_identity |>.mp ho
  have d1 := addOrderOf_dvd_of_nsmul_eq_zero h4
  have d2 := addOrderOf_dvd_of_nsmul_eq_zero hq
  have hodd := hc.odd
  have hcop : Nat.Coprime 4 c.q := by
    have : Nat.Coprime 2 c.q := Nat.coprime_two_left.mpr (Nat.odd_iff.mpr hodd)
    exact Nat.Coprime.pow_left 2 this
  have h1 : addOrderOf A = 1 := Nat.eq_one_of_dvd_coprimes hcop d1 d2
  have hA0 : A = 0 := AddMonoid.addOrderOf_eq_one_iff.mp h1
  have : A.y = 1 := by rw [hA0, zero_y]
  rw [hAy] at this
  exact zero_ne_one this

theorem encode_inj {c : Curve} (h : GoodField c) {P R : Point} (hP : OnCurve c P) (hR : OnCurve c R)
    (e : P.encode = R.encode) : P = R := by
  have h1 := Point.decode_encode h hP
  rw [e, Point.decode_encode h hR] at h1
  cases h1
  rfl

theorem diffPoints_eq {c : Curve} (hc : GoodCurve c) {P R : Point} (hP : OnCurve c P) (hR : OnCurve c R)
    (oP : Point.mul c P c.q = Point.identity) (oR : Point.mul c R c.q = Point.identity) :
    diffPoints P R = .ok (if P = R then 0 else 1) := by
  unfold diffPoints
  rw [diffBytes_eq (by rw [P.encode_length, R.encode_length]) (encode_nonzero hc hP oP) (encode_nonzero hc hR oR)]
  by_cases e : P = R
  · simp [e]
  · rw [if_neg e, if_neg (fun h => e (encode_inj hc.field hP hR h))]

section
variable {c : Curve} [hf : Fact (Nat.Prime c.p)] [hg : Good ((c.d : Int) : ZMod c.p)]

theorem zsmul_modFloor {q : Nat} (hq : 0 < q) {A : Pt ((c.d : Int) : ZMod c.p)} (h : q • A = 0) (z : Int) :
    modFloor z q • A = z • A := by
  have h1 : ((modFloor z q : Nat) : Int) = z % q := by
    unfold modFloor
    exact Int.toNat_of_nonneg (Int.emod_nonneg _ (by omega))
  rw [← natCast_zsmul, h1]
  conv_rhs => rw [← Int.emod_add_mul_ediv z q]
  rw [add_zsmul, mul_comm, mul_zsmul, natCast_zsmul, h]
  simp

theorem nsmul_mod {q : Nat} {A : Pt ((c.d : Int) : ZMod c.p)} (h : q • A = 0) (n : Nat) :
    (n % q) • A = n • A := by
  conv_rhs => rw [← Nat.mod_add_div n q]
  rw [add_smul, mul_comm, mul_smul, h, smul_zero, add_zero]

end

/-- Multiples of the base point are on the curve and killed by `q`. -/
theorem mulG_good {c : Curve} (hc : GoodCurve c) (s : Nat) :
    OnCurve c (Point.mul c c.G s) ∧ Point.mul c (Point.mul c c.G s) c.q = Point.identity := by
  have := Fact.mk hc.field.prime
  have := hc.field.good
  obtain ⟨A, hA⟩ := OnCurve.rep hc.base
  have hq : c.q • A = 0 := (hA.mul c.q).eq_iff rep_identity |>.mp hc.order
  refine ⟨(hA.mul s).onCurve, ?_⟩
  refine (((hA.mul s).mul c.q).eq_iff rep_identity).mpr ?_
  rw [smul_comm, hq, smul_zero]

/-! ## EdDSA -/

theorem edValidate_sign {E : Env} (hc : GoodCurve E.curve) (k : EdDSAKeyPair)
    (hk : k.pub = Point.mul E.curve E.curve.G (edSecret E k.sym)) (m : Bytes)
    (h1 : (k.sign E m).r ≠ Point.identity.encode) (h2 : leNat (k.sign E m).s ≠ 0) :
    edValidate E k.pub (k.sign E m) m = .ok () := by
  have hf := Fact.mk hc.field.prime
  have hg := hc.field.good
  obtain ⟨A, hA⟩ := OnCurve.rep hc.base
  have hq : E.curve.q • A = 0 := (hA.mul E.curve.q).eq_iff rep_identity |>.mp hc.order
  have hqpos : 0 < E.curve.q := by have := hc.big; omega
  have hr : ∃ r, (k.sign E m).r = (Point.mul E.curve E.curve.G r).encode ∧
      (k.sign E m).s = leBytes 57 ((r + leNat (E.shake 114 (dom4 ++ (k.sign E m).r ++ k.pub.encode ++ m)) *
        edSecret E k.sym) % E.curve.q) := by
    refine ⟨leNat (E.shake 114 (dom4 ++ (E.shake 114 k.sym).drop 57 ++ m)), rfl, ?_⟩
    rw [hk]
    rfl
  obtain ⟨r, e1, e2⟩ := hr
  generalize hkk : leNat (E.shake 114 (dom4 ++ (k.sign E m).r ++ k.pub.encode ++ m)) = kk at e2
  generalize hS : (r + kk * edSecret E k.sym) % E.curve.q = S at e2
  have hSlt : S < E.curve.q := by rw [← hS]; exact Nat.mod_lt _ hqpos
  have hSv : leNat (k.sign E m).s = S := by
    rw [e2, leNat_leBytes_of_lt (Nat.lt_trans hSlt hc.fits)]
  obtain ⟨gR1, gR2⟩ := mulG_good hc r
  obtain ⟨gS1, gS2⟩ := mulG_good hc S
  have hd : Point.decode E.curve (k.sign E m).r = .ok (Point.mul E.curve E.curve.G r) := by
    rw [e1]; exact Point.decode_encode hc.field gR1
  have hv : Point.verify E.curve (Point.mul E.curve E.curve.G r) = .ok () := by
    apply (verify_iff gR1).mpr
    refine ⟨gR1, ?_, gR2⟩
    intro e
    apply h1
    rw [e1, e]
  have hpt : Point.mul E.curve E.curve.G S =
      Point.add E.curve (Point.mul E.curve E.curve.G r) (Point.mul E.curve k.pub kk) := by
    rw [hk]
    refine ((hA.mul S).eq_iff ((hA.mul r).add ((hA.mul (edSecret E k.sym)).mul kk))).mpr ?_
    rw [← hS, nsmul_mod hq, add_smul, mul_smul]
  unfold edValidate
  rw [hd, Res.bind_ok, hv, Res.bind_ok]
  simp only
  rw [hSv, if_neg (by rw [hSv] at h2; omega), hkk, ← hpt]
  exact compareBytes_self (encode_nonzero hc gS1 gS2)

/-! ## Ring signatures -/

theorem com_other {c : Curve} (hc : GoodCurve c) {A : Point} (hA : OnCurve c A) (r ci : Nat) :
    Point.add c (Point.mul c c.G 0) (Point.add c (Point.mul c c.G r) (Point.mul c A ci)) =
      Point.add c (Point.mul c c.G r) (Point.mul c A ci) := by
  have := Fact.mk hc.field.prime
  have := hc.field.good
  obtain ⟨G, hG⟩ := OnCurve.rep hc.base
  obtain ⟨B, hB⟩ := OnCurve.rep hA
  refine (((hG.mul _).add ((hG.mul _).add (hB.mul _))).eq_iff ((hG.mul _).add (hB.mul _))).mpr ?_
  simp

theorem com_signer {c : Curve} (hc : GoodCurve c) {A : Point} (hA : OnCurve c A) (t : Nat) :
    Point.add c (Point.mul c c.G t) (Point.add c (Point.mul c c.G 0) (Point.mul c A 0)) =
      Point.mul c c.G t := by
  have := Fact.mk hc.field.prime
  have := hc.field.good
  obtain ⟨G, hG⟩ := OnCurve.rep hc.base
  obtain ⟨B, hB⟩ := OnCurve.rep hA
  refine (((hG.mul _).add ((hG.mul _).add (hB.mul _))).eq_iff (hG.mul _)).mpr ?_
  simp

theorem response {c : Curve} (hc : GoodCurve c) {A : Point} {sk : Nat} (h : A = Point.mul c c.G sk) (t c' : Nat) :
      Point.add c (Point.mul c c.G (modFloor ((t : Int) - modFloor ((c' : Int) * sk) c.q) c.q))
        (Point.mul c A c') = Point.mul c c.G t := by
  have := Fact.mk hc.field.prime
  have := hc.field.good
  obtain ⟨G, hG⟩ := OnCurve.rep hc.base
  have hq : c.q • G = 0 := (hG.mul c.q).eq_iff rep_identity |>.mp hc.order
  have hqpos : 0 < c.q := by have := hc.big; omega
  subst h
  refine (((hG.mul _).add ((hG.mul _).mul _)).eq_iff (hG.mul _)).mpr ?_
  rw [zsmul_modFloor hqpos hq, sub_zsmul, natCast_zsmul, natCast_zsmul, zsmul_modFloor hqpos hq]
  simp [mul_zsmul, natCast_zsmul]

theorem hashToScalar_lt {E : Env} (hq : 0 < E.curve.q) (u : UInt8) (d : Bytes) :
    hashToScalar E u d < E.curve.q := Nat.mod_lt _ hq

theorem ringChallenge_lt {E : Env} (hq : 0 < E.curve.q) (A1 A2 A3 T1 T2 T3 : Point) (m : Bytes) :
    ringChallenge E A1 A2 A3 T1 T2 T3 m < E.curve.q := hashToScalar_lt hq _ _

theorem sum_mod1 {q ch : Nat} (hq : 0 < q) (hch : ch < q) (a b : Nat) :
    (modFloor ((ch : Int) - a - b) q + a + b) % q = ch := by
  have h1 : ((modFloor ((ch : Int) - a - b) q : Nat) : Int) = ((ch : Int) - a - b) % q := by
    unfold modFloor
    exact Int.toNat_of_nonneg (Int.emod_nonneg _ (by omega))
  have h2 : (((modFloor ((ch : Int) - a - b) q + a + b) % q : Nat) : Int) = ch := by
    push_cast
    rw [h1]
    have := Int.emod_add_mul_ediv ((ch : Int) - a - b) q
    have e : ((ch : Int) - a - b) % q + a + b = ch + q * (-(((ch : Int) - a - b) / q)) := by linarith
    rw [e, Int.add_mul_emod_self_left]
    exact Int.emod_eq_of_lt (by omega) (by omega)
  exact_mod_cast h2

theorem sum_mod2 {q ch : Nat} (hq : 0 < q) (hch : ch < q) (a b : Nat) :
    (a + modFloor ((ch : Int) - a - b) q + b) % q = ch := by
  rw [Nat.add_comm a]; exact sum_mod1 hq hch a b

theorem sum_mod3 {q ch : Nat} (hq : 0 < q) (hch : ch < q) (a b : Nat) :
    (a + b + modFloor ((ch : Int) - a - b) q) % q = ch := by
  rw [Nat.add_comm, ← Nat.add_assoc]; exact sum_mod1 hq hch a b

theorem compareScalars_self {a : Nat} (h : a ≠ 0) : compareScalars a a = .ok () := by
  simp [compareScalars, h]

theorem ring_sign_validate {E : Env} (hc : GoodCurve E.curve) (k : EdDSAKeyPair)
    (hk : k.pub = Point.mul E.curve E.curve.G k.sk) {A1 A2 A3 : Point} (h1 : GoodKey E.curve A1)
    (h2 : GoodKey E.curve A2) (h3 : GoodKey E.curve A3)
    (hone : (k.pub = A1 ∧ k.pub ≠ A2 ∧ k.pub ≠ A3) ∨ (k.pub ≠ A1 ∧ k.pub = A2 ∧ k.pub ≠ A3) ∨
      (k.pub ≠ A1 ∧ k.pub ≠ A2 ∧ k.pub = A3)) (m : Bytes) (rnd : Rand) :
    ∃ s, RingSignature.sign E k A1 A2 A3 m rnd = .ok s ∧
      ((s.c1 + s.c2 + s.c3) % E.curve.q ≠ 0 → s.validate E A1 A2 A3 m = .ok ()) := by
  have hqpos : 0 < E.curve.q := by have := hc.big; omega
  obtain ⟨g1, g2⟩ := mulG_good hc k.sk
  rw [← hk] at g1 g2
  unfold RingSignature.sign
  simp only [(verify_iff h1.on).mpr h1, (verify_iff h2.on).mpr h2, (verify_iff h3.on).mpr h3, Res.bind_ok,
    diffPoints_eq hc g1 h1.on g2 h1.order, diffPoints_eq hc g1 h2.on g2 h2.order,
    diffPoints_eq hc g1 h3.on g2 h3.order]
  have n1 : ((1 : UInt8) - 0).toNat = 1 := rfl
  have n0 : ((1 : UInt8) - 1).toNat = 0 := rfl
  rcases hone with ⟨e1, e2, e3⟩ | ⟨e1, e2, e3⟩ | ⟨e1, e2, e3⟩
  · simp only [if_pos e1, if_neg e2, if_neg e3, n1, n0, Res.assert, decide_true, if_true, Res.bind_ok]
    refine ⟨_, rfl, ?_⟩
    unfold RingSignature.validate
    simp only [Nat.zero_mul, Nat.sub_self, Nat.sub_zero, Nat.one_mul, Nat.zero_add, Nat.add_zero,
      com_other hc h2.on, com_other hc h3.on, com_signer hc h1.on, response hc (e1.symm.trans hk)]
    intro hnz
    rw [sum_mod1 hqpos (ringChallenge_lt hqpos ..)] at hnz ⊢
    exact compareScalars_self hnz
  · simp only [if_neg e1, if_pos e2, if_neg e3, n1, n0, Res.assert, decide_true, if_true, Res.bind_ok]
    refine ⟨_, rfl, ?_⟩
    unfold RingSignature.validate
    simp only [Nat.zero_mul, Nat.sub_self, Nat.sub_zero, Nat.one_mul, Nat.zero_add, Nat.add_zero,
      com_other hc h1.on, com_other hc h3.on, com_signer hc h2.on, response hc (e2.symm.trans hk)]
    intro hnz
    rw [sum_mod2 hqpos (ringChallenge_lt hqpos ..)] at hnz ⊢
    exact compareScalars_self hnz
  · simp only [if_neg e1, if_neg e2, if_pos e3, n1, n0, Res.assert, decide_true, if_true, Res.bind_ok]
    refine ⟨_, rfl, ?_⟩
    unfold RingSignature.validate
    simp only [Nat.zero_mul, Nat.sub_self, Nat.sub_zero, Nat.one_mul, Nat.zero_add, Nat.add_zero,
      com_other hc h1.on, com_other hc h2.on, com_signer hc h3.on, response hc (e3.symm.trans hk)]
    intro hnz
    rw [sum_mod3 hqpos (ringChallenge_lt hqpos ..)] at hnz ⊢
    exact compareScalars_self hnz

end Otrr
