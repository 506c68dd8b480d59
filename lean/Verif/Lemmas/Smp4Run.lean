import Verif.Lemmas.Smp4Steps
/-!
A complete exchange of SMP in OTRv4 between two clients.
-/

namespace Otrr
open Spec Edwards

namespace SMP4

/-! ## Messages of a client that follows the protocol -/

theorem fields_point {c : Curve} {P : Point} (h : OnCurve c P) {v : List Field4} {b : Bytes} (hv : Fields c v b) :
    Fields c (.point P :: v) (wPoint P ++ b) := by
  refine .point P.encode_length h ?_ hv
  simp only [wPoint, Point.encode]
  rw [List.take_left' (by simp), List.getD_eq_getElem?_getD, List.getElem?_append_right (by simp)]
  simp only [leBytes_length, Nat.sub_self, List.getElem?_cons_zero, Option.getD_some]
  split <;> rfl

theorem fields_scalar {c : Curve} (hq : c.q < 256 ^ 57) {s : Nat} (h : s < c.q) {v : List Field4} {b : Bytes}
    (hv : Fields c v b) : Fields c (.scalar s :: v) (wScalar s ++ b) := by
  have : Fields c (.scalar (leNat (wScalar s) % c.q) :: v) (wScalar s ++ b) := .scalar (by simp [wScalar]) hv
  rwa [wScalar, leNat_leBytes_of_lt (Nat.lt_trans h hq), Nat.mod_eq_of_lt h] at this

theorem response_lt {c : Curve} (hc : GoodCurve c) (r a ch : Nat) : response c r a ch < c.q := modFloor_lt (pos_q hc) _

theorem hash1_lt {E : Env} (hc : GoodCurve E.curve) (u : UInt8) (P : Point) : hash1 E u P < E.curve.q :=
  hashToScalar_lt (pos_q hc) _ _
theorem hash2_lt {E : Env} (hc : GoodCurve E.curve) (u : UInt8) (P R : Point) : hash2 E u P R < E.curve.q :=
  hashToScalar_lt (pos_q hc) _ _

theorem runDec_of {d : Dec α} {s : Bytes} {a : α} {s' : Bytes} (h : d s = .ok (a, s')) : runDec d s = .ok a := by
  unfold runDec; rw [h]

section read
variable {c : Curve} (hc : GoodCurve c)
include hc

theorem readMsg1_w {q : Bytes} (hq : dataOk q) {G2a G3a : Point} (h1 : GoodKey c G2a) (h2 : GoodKey c G3a) {c2 d2 c3 d3 : Nat}
    (l1 : c2 < c.q) (l2 : d2 < c.q) (l3 : c3 < c.q) (l4 : d3 < c.q) (n1 : c2 ≠ 0) (n2 : d2 ≠ 0) (n3 : c3 ≠ 0) (n4 : d3 ≠ 0) :
    runDec (readMsg1 c) (wData q ++ wPoint G2a ++ wScalar c2 ++ wScalar d2 ++ wPoint G3a ++ wScalar c3 ++ wScalar d3) =
      .ok ⟨q, G2a, c2, d2, G3a, c3, d3⟩ := by
  apply runDec_of (s' := [])
  have e : wScalar d3 = wScalar d3 ++ [] := (List.append_nil _).symm
  rw [e]
  simp only [List.append_assoc]
  unfold readMsg1
  simp only [Dec.bind_run, readData_w hq, readPoint_w hc.field h1.on, readPoint_w hc.field h2.on, Dec.lift,
    (verify_iff h1.on).mpr h1, (verify_iff h2.on).mpr h2, readScalar_w hc.fits n1 l1, readScalar_w hc.fits n2 l2,
    readScalar_w hc.fits n3 l3, readScalar_w hc.fits n4 l4]
  rfl

theorem readMsg2_w {G2b G3b Pb Qb : Point} (h1 : OnCurve c G2b) (h2 : OnCurve c G3b) (h3 : OnCurve c Pb) (h4 : OnCurve c Qb)
    {c2 d2 c3 d3 cp d5 d6 : Nat}
    (l1 : c2 < c.q) (l2 : d2 < c.q) (l3 : c3 < c.q) (l4 : d3 < c.q) (l5 : cp < c.q) (l6 : d5 < c.q) (l7 : d6 < c.q)
    (n1 : c2 ≠ 0) (n2 : d2 ≠ 0) (n3 : c3 ≠ 0) (n4 : d3 ≠ 0) (n5 : cp ≠ 0) (n6 : d5 ≠ 0) (n7 : d6 ≠ 0) :
    runDec (readMsg2 c) (wPoint G2b ++ wScalar c2 ++ wScalar d2 ++ wPoint G3b ++ wScalar c3 ++ wScalar d3 ++
      wPoint Pb ++ wPoint Qb ++ wScalar cp ++ wScalar d5 ++ wScalar d6) =
      .ok ⟨G2b, c2, d2, G3b, c3, d3, Pb, Qb, cp, d5, d6⟩ := by
  apply runDec_of (s' := [])
  have e : wScalar d6 = wScalar d6 ++ [] := (List.append_nil _).symm
  rw [e]
  simp only [List.append_assoc]
  unfold readMsg2
  simp only [Dec.bind_run, readPoint_w hc.field h1, readPoint_w hc.field h2, readPoint_w hc.field h3, readPoint_w hc.field h4,
    readScalar_w hc.fits n1 l1, readScalar_w hc.fits n2 l2, readScalar_w hc.fits n3 l3, readScalar_w hc.fits n4 l4,
    readScalar_w hc.fits n5 l5, readScalar_w hc.fits n6 l6, readScalar_w hc.fits n7 l7]
  rfl

theorem readMsg3_w {Pa Qa Ra : Point} (h1 : OnCurve c Pa) (h2 : OnCurve c Qa) (h3 : OnCurve c Ra)
    {cp d5 d6 cr d7 : Nat}
    (l1 : cp < c.q) (l2 : d5 < c.q) (l3 : d6 < c.q) (l4 : cr < c.q) (l5 : d7 < c.q)
    (n1 : cp ≠ 0) (n2 : d5 ≠ 0) (n3 : d6 ≠ 0) (n4 : cr ≠ 0) (n5 : d7 ≠ 0) :
    runDec (readMsg3 c) (wPoint Pa ++ wPoint Qa ++ wScalar cp ++ wScalar d5 ++ wScalar d6 ++ wPoint Ra ++ wScalar cr ++ wScalar d7) =
      .ok ⟨Pa, Qa, cp, d5, d6, Ra, cr, d7⟩ := by
  apply runDec_of (s' := [])
  have e : wScalar d7 = wScalar d7 ++ [] := (List.append_nil _).symm
  rw [e]
  simp only [List.append_assoc]
  unfold readMsg3
  simp only [Dec.bind_run, readPoint_w hc.field h1, readPoint_w hc.field h2, readPoint_w hc.field h3,
    readScalar_w hc.fits n1 l1, readScalar_w hc.fits n2 l2, readScalar_w hc.fits n3 l3, readScalar_w hc.fits n4 l4,
    readScalar_w hc.fits n5 l5]
  rfl

theorem readMsg4_w {Rb : Point} (h1 : OnCurve c Rb) {cr d7 : Nat} (l1 : cr < c.q) (l2 : d7 < c.q) (n1 : cr ≠ 0) (n2 : d7 ≠ 0) :
    runDec (readMsg4 c) (wPoint Rb ++ wScalar cr ++ wScalar d7) = .ok ⟨Rb, cr, d7⟩ := by
  apply runDec_of (s' := [])
  have e : wScalar d7 = wScalar d7 ++ [] := (List.append_nil _).symm
  rw [e]
  simp only [List.append_assoc]
  unfold readMsg4
  simp only [Dec.bind_run, readPoint_w hc.field h1, readScalar_w hc.fits n1 l1, readScalar_w hc.fits n2 l2]
  rfl

end read

/-- A point of odd order other than the identity is not on the axis `x = 0`. -/
theorem x_ne_zero {c : Curve} (hc : GoodCurve c) {P : Point} (hP : GoodKey c P) : P.x ≠ 0 := by
  have := Fact.mk hc.field.prime
  have := hc.field.good
  intro h0
  obtain ⟨A, h1, h2⟩ := hP.inSub.rep
  apply hP.ne
  apply (h1.eq_iff rep_identity).mpr
  have hx : A.x = 0 := by rw [← h1.2.2.1, h0]; simp
  have hneg : -A = A := by
    ext
    · show -A.x = A.x
      rw [hx, neg_zero]
    · rfl
  have h2A : 2 • A = 0 := by
    rw [two_nsmul]; nth_rewrite 1 [← hneg]; exact neg_add_cancel A
  have hq : c.q = 2 * (c.q / 2) + 1 := by have := hc.odd; omega
  rw [hq, add_nsmul, Nat.mul_comm, mul_nsmul', h2A, nsmul_zero, zero_add, one_nsmul] at h2
  exact h2

/-- The final comparison, in the group: it holds exactly if the secrets agree.  `n` stands for `a3 b3`, `m` for `a2 b2`. -/
theorem final_pt {M : Type*} [AddCommGroup M] {g : M} {q : Nat} (ho : addOrderOf g = q) (m n s t x y : Nat) :
    n • ((s • g + x • m • g) - (t • g + y • m • g)) = s • n • g - t • n • g ↔ (m * n * x) % q = (m * n * y) % q := by
  have h1 : (m * n * x) % q = (m * n * y) % q ↔ (m * n * x) • g = (m * n * y) • g := by
    rw [← ho]; exact nsmul_eq_nsmul_iff_modEq.symm
  rw [h1]
  have e1 : n • ((s • g + x • m • g) - (t • g + y • m • g)) =
      (s • n • g - t • n • g) + ((m * n * x) • g - (m * n * y) • g) := by
    simp only [smul_sub, smul_add, ← mul_smul]
    rw [Nat.mul_comm n s, Nat.mul_comm n t, show n * (x * m) = m * n * x by ring, show n * (y * m) = m * n * y by ring]
    abel
  rw [e1]
  constructor
  · intro h
    have := add_eq_left.mp h
    exact sub_eq_zero.mp this
  · intro h; rw [h, sub_self, add_zero]

theorem cancel_mod {q u x y : Nat} (hq : Nat.Prime q) (hu : u % q ≠ 0) : (u * x) % q = (u * y) % q ↔ x % q = y % q := by
  have hc : Nat.Coprime q u := (Nat.Prime.coprime_iff_not_dvd hq).mpr fun hd => hu (Nat.mod_eq_zero_of_dvd hd)
  exact ⟨fun h => Nat.ModEq.cancel_left_of_coprime hc h, fun h => Nat.ModEq.mul_left u h⟩

theorem mul_mod_ne {q u v : Nat} (hq : Nat.Prime q) (hu : u % q ≠ 0) (hv : v % q ≠ 0) : (u * v) % q ≠ 0 := by
  intro h
  rcases (Nat.Prime.dvd_mul hq).mp (Nat.dvd_of_mod_eq_zero h) with h | h
  · exact hu (Nat.mod_eq_zero_of_dvd h)
  · exact hv (Nat.mod_eq_zero_of_dvd h)

theorem mod_of_mul_ne {q u v : Nat} (h : (u * v) % q ≠ 0) : u % q ≠ 0 ∧ v % q ≠ 0 := by
  constructor <;> intro h0 <;> apply h <;> simp [Nat.mul_mod, h0]

/-! ## The fields of honest messages -/

/-- The fields of the four messages, as sent by a client that follows the protocol. -/
def sent1 (E : Env) (a2 a3 r2 r3 : Nat) : List Field4 :=
  let c := E.curve
  let c2 := hash1 E 1 (Point.mul c c.G r2)
  let c3 := hash1 E 2 (Point.mul c c.G r3)
  fields1 (Point.mul c c.G a2) c2 (response c r2 a2 c2) (Point.mul c c.G a3) c3 (response c r3 a3 c3)
def sent2 (E : Env) (G2 G3 : Point) (y : Nat) (e : SMP.Exps2) : List Field4 :=
  let c := E.curve
  let c2 := hash1 E 3 (Point.mul c c.G e.r2)
  let c3 := hash1 E 4 (Point.mul c c.G e.r3)
  let cp := hash2 E 5 (Point.mul c G3 e.r5) (comb2 c c.G e.r5 G2 e.r6)
  fields2 (Point.mul c c.G e.b2) c2 (response c e.r2 e.b2 c2) (Point.mul c c.G e.b3) c3 (response c e.r3 e.b3 c3)
    (Point.mul c G3 e.r4) (comb2 c c.G e.r4 G2 y) cp (response c e.r5 e.r4 cp) (response c e.r6 y cp)
def sent3 (E : Env) (G2 G3 : Point) (x a3 : Nat) (deltaQ : Point) (e : SMP.Exps3) : List Field4 :=
  let c := E.curve
  let cp := hash2 E 6 (Point.mul c G3 e.r5) (comb2 c c.G e.r5 G2 e.r6)
  let cr := hash2 E 7 (Point.mul c c.G e.r7) (Point.mul c deltaQ e.r7)
  fields3 (Point.mul c G3 e.r4) (comb2 c c.G e.r4 G2 x) cp (response c e.r5 e.r4 cp) (response c e.r6 x cp)
    (Point.mul c deltaQ a3) cr (response c e.r7 a3 cr)
def sent4 (E : Env) (deltaQ : Point) (b3 r7 : Nat) : List Field4 :=
  let c := E.curve
  let cr := hash2 E 8 (Point.mul c c.G r7) (Point.mul c deltaQ r7)
  fields4 (Point.mul c deltaQ b3) cr (response c r7 b3 cr)

section honest
variable {E : Env} (hc : GoodCurve E.curve)
include hc

theorem on_mul {P : Point} (h : InSub E.curve P) (n : Nat) : OnCurve E.curve (Point.mul E.curve P n) := by
  have := Fact.mk hc.field.prime
  have := hc.field.good
  exact (h.mul n).1

theorem on_comb {P R : Point} (h : InSub E.curve P) (h' : InSub E.curve R) (x y : Nat) :
    OnCurve E.curve (comb2 E.curve P x R y) := by
  have := Fact.mk hc.field.prime
  have := hc.field.good
  exact (h.comb2 h' x y).1

theorem carries1 {q : Bytes} (hq : q.length < 2 ^ 32) (a2 a3 r2 r3 : Nat) :
    Carries E.curve q (sent1 E a2 a3 r2 r3) ⟨T1, message1 E q a2 a3 r2 r3⟩ := by
  have := fields_point (on_mul hc (inSub_G hc) a2) (fields_scalar hc.fits (hash1_lt hc 1 (Point.mul E.curve E.curve.G r2))
    (fields_scalar hc.fits (response_lt hc r2 a2 (hash1 E 1 (Point.mul E.curve E.curve.G r2)))
    (fields_point (on_mul hc (inSub_G hc) a3) (fields_scalar hc.fits (hash1_lt hc 2 (Point.mul E.curve E.curve.G r3))
    (fields_scalar hc.fits (response_lt hc r3 a3 (hash1 E 2 (Point.mul E.curve E.curve.G r3))) .nil)))))
  refine .inl ⟨rfl, hq, _, ?_, this⟩
  simp only [message1, List.append_assoc, List.append_nil]

theorem carries2 {G2 G3 : Point} (h2 : InSub E.curve G2) (h3 : InSub E.curve G3) (y : Nat) (e : SMP.Exps2) :
    Carries E.curve [] (sent2 E G2 G3 y e) ⟨T2, message2 E G2 G3 y e⟩ := by
  apply carries_of (show T2 ≠ 2 by decide)
  have := fields_point (on_mul hc (inSub_G hc) e.b2) (fields_scalar hc.fits (hash1_lt hc 3 (Point.mul E.curve E.curve.G e.r2))
    (fields_scalar hc.fits (response_lt hc e.r2 e.b2 (hash1 E 3 (Point.mul E.curve E.curve.G e.r2)))
    (fields_point (on_mul hc (inSub_G hc) e.b3) (fields_scalar hc.fits (hash1_lt hc 4 (Point.mul E.curve E.curve.G e.r3))
    (fields_scalar hc.fits (response_lt hc e.r3 e.b3 (hash1 E 4 (Point.mul E.curve E.curve.G e.r3)))
    (fields_point (on_mul hc h3 e.r4) (fields_point (on_comb hc (inSub_G hc) h2 e.r4 y)
    (fields_scalar hc.fits (hash2_lt hc 5 (Point.mul E.curve G3 e.r5) (comb2 E.curve E.curve.G e.r5 G2 e.r6))
    (fields_scalar hc.fits (response_lt hc e.r5 e.r4 (hash2 E 5 (Point.mul E.curve G3 e.r5) (comb2 E.curve E.curve.G e.r5 G2 e.r6)))
    (fields_scalar hc.fits (response_lt hc e.r6 y (hash2 E 5 (Point.mul E.curve G3 e.r5) (comb2 E.curve E.curve.G e.r5 G2 e.r6)))
      .nil))))))))))
  simpa only [sent2, fields2, message2, List.append_assoc, List.append_nil] using this

theorem carries3 {G2 G3 D : Point} (h2 : InSub E.curve G2) (h3 : InSub E.curve G3) (hD : InSub E.curve D) (x a3 : Nat)
    (e : SMP.Exps3) : Carries E.curve [] (sent3 E G2 G3 x a3 D e) ⟨T3, message3 E G2 G3 x a3 D e⟩ := by
  apply carries_of (show T3 ≠ 2 by decide)
  have := fields_point (on_mul hc h3 e.r4) (fields_point (on_comb hc (inSub_G hc) h2 e.r4 x)
    (fields_scalar hc.fits (hash2_lt hc 6 (Point.mul E.curve G3 e.r5) (comb2 E.curve E.curve.G e.r5 G2 e.r6))
    (fields_scalar hc.fits (response_lt hc e.r5 e.r4 (hash2 E 6 (Point.mul E.curve G3 e.r5) (comb2 E.curve E.curve.G e.r5 G2 e.r6)))
    (fields_scalar hc.fits (response_lt hc e.r6 x (hash2 E 6 (Point.mul E.curve G3 e.r5) (comb2 E.curve E.curve.G e.r5 G2 e.r6)))
    (fields_point (on_mul hc hD a3)
    (fields_scalar hc.fits (hash2_lt hc 7 (Point.mul E.curve E.curve.G e.r7) (Point.mul E.curve D e.r7))
    (fields_scalar hc.fits (response_lt hc e.r7 a3 (hash2 E 7 (Point.mul E.curve E.curve.G e.r7) (Point.mul E.curve D e.r7)))
      .nil)))))))
  simpa only [sent3, fields3, message3, List.append_assoc, List.append_nil] using this

theorem carries4 {D : Point} (hD : InSub E.curve D) (b3 r7 : Nat) :
    Carries E.curve [] (sent4 E D b3 r7) ⟨T4, message4 E D b3 r7⟩ := by
  apply carries_of (show T4 ≠ 2 by decide)
  have := fields_point (on_mul hc hD b3)
    (fields_scalar hc.fits (hash2_lt hc 8 (Point.mul E.curve E.curve.G r7) (Point.mul E.curve D r7))
    (fields_scalar hc.fits (response_lt hc r7 b3 (hash2 E 8 (Point.mul E.curve E.curve.G r7) (Point.mul E.curve D r7))) .nil))
  simpa only [sent4, fields4, message4, List.append_assoc, List.append_nil] using this

/-! ## Honest messages are accepted -/

theorem honest1 {host : SMPHost} {B : SMP4Context} {rnd : Rand} {q answer : Bytes} (hst : B.state = .expect1)
    (hq : q.length < 2 ^ 32) (hans : host.secret q = some answer) {a2 a3 r2 r3 : Nat} (hn : Nontrivial4 (sent1 E a2 a3 r2 r3))
    (hg : Good1 E answer (Point.mul E.curve E.curve.G a2) (Point.mul E.curve E.curve.G a3) rnd B) :
    handle E host ⟨T1, message1 E q a2 a3 r2 r3⟩ rnd B =
      (.ok (some (after1 E answer (Point.mul E.curve E.curve.G a2) (Point.mul E.curve E.curve.G a3) rnd B).1),
        (after1 E answer (Point.mul E.curve E.curve.G a2) (Point.mul E.curve E.curve.G a3) rnd B).2) := by
  have := Fact.mk hc.field.prime
  have := hc.field.good
  simp only [Nontrivial4, sent1, fields1, List.forall_mem_cons, ne_eq, Field4.point.injEq, Field4.scalar.injEq, reduceCtorEq,
    not_false_eq_true, and_true, true_and, List.not_mem_nil, false_implies, implies_true] at hn
  obtain ⟨n1, n2, n3, n4, n5, n6⟩ := hn
  have k1 : GoodKey E.curve (Point.mul E.curve E.curve.G a2) := goodKey_iff.mpr ⟨(inSub_G hc).mul _, n1⟩
  have k2 : GoodKey E.curve (Point.mul E.curve E.curve.G a3) := goodKey_iff.mpr ⟨(inSub_G hc).mul _, n4⟩
  have hr := readMsg1_w hc (q := q) (by simpa [dataOk] using hq) k1 k2 (hash1_lt hc 1 (Point.mul E.curve E.curve.G r2))
    (response_lt hc r2 a2 _) (hash1_lt hc 2 (Point.mul E.curve E.curve.G r3)) (response_lt hc r3 a3 _) n2 n3 n5 n6
  have hch : check1 E ⟨q, Point.mul E.curve E.curve.G a2, hash1 E 1 (Point.mul E.curve E.curve.G r2),
      response E.curve r2 a2 (hash1 E 1 (Point.mul E.curve E.curve.G r2)), Point.mul E.curve E.curve.G a3,
      hash1 E 2 (Point.mul E.curve E.curve.G r3),
      response E.curve r3 a3 (hash1 E 2 (Point.mul E.curve E.curve.G r3))⟩ = .ok () := by
    simp only [check1, base_eq hc (inSub_G hc), compareScalars_self n2, compareScalars_self n5, Res.bind_ok]
  obtain ⟨g1, g2, g3, g4⟩ := hg
  have : dispatch E host ⟨T1, message1 E q a2 a3 r2 r3⟩ rnd B =
      .ok (some (after1 E answer (Point.mul E.curve E.curve.G a2) (Point.mul E.curve E.curve.G a3) rnd B).1,
        (after1 E answer (Point.mul E.curve E.curve.G a2) (Point.mul E.curve E.curve.G a3) rnd B).2) := by
    simp only [dispatch, if_neg (show ¬ T1 = TAbort by decide), if_true, handle1, hst]
    rw [message1, hr]
    simp only [Res.bind_ok, hch, hans, (verify_iff g1.on).mpr g1, (verify_iff g2.on).mpr g2, (verify_iff g3.on).mpr g3,
      (verify_iff g4.on).mpr g4]
    rfl
  rw [handle, this]

theorem honest2 {host : SMPHost} {A : SMP4Context} {rnd : Rand} {x a2 a3 y : Nat} {e : SMP.Exps2} {G2 G3 : Point}
    (hst : A.state = .expect2 x a2 a3) (h2 : G2 = Point.mul E.curve (Point.mul E.curve E.curve.G a2) e.b2)
    (h3 : G3 = Point.mul E.curve (Point.mul E.curve E.curve.G a3) e.b3) (k2 : GoodKey E.curve G2) (k3 : GoodKey E.curve G3)
    (hn : Nontrivial4 (sent2 E G2 G3 y e)) :
    handle E host ⟨T2, message2 E G2 G3 y e⟩ rnd A =
      (.ok (some (after2 E x a2 a3 (Point.mul E.curve E.curve.G e.b2) (Point.mul E.curve E.curve.G e.b3)
          (Point.mul E.curve G3 e.r4) (comb2 E.curve E.curve.G e.r4 G2 y) rnd A).1),
        (after2 E x a2 a3 (Point.mul E.curve E.curve.G e.b2) (Point.mul E.curve E.curve.G e.b3)
          (Point.mul E.curve G3 e.r4) (comb2 E.curve E.curve.G e.r4 G2 y) rnd A).2) := by
  have := Fact.mk hc.field.prime
  have := hc.field.good
  simp only [Nontrivial4, sent2, fields2, List.forall_mem_cons, ne_eq, Field4.point.injEq, Field4.scalar.injEq, reduceCtorEq,
    not_false_eq_true, and_true, true_and, List.not_mem_nil, false_implies, implies_true] at hn
  obtain ⟨n1, n2, n3, n4, n5, n6, n7, n8, n9, n10, n11⟩ := hn
  have b2 : GoodKey E.curve (Point.mul E.curve E.curve.G e.b2) := goodKey_iff.mpr ⟨(inSub_G hc).mul _, n1⟩
  have b3 : GoodKey E.curve (Point.mul E.curve E.curve.G e.b3) := goodKey_iff.mpr ⟨(inSub_G hc).mul _, n4⟩
  have hr := readMsg2_w hc b2.on b3.on (on_mul hc k3.inSub e.r4) (on_comb hc (inSub_G hc) k2.inSub e.r4 y)
    (hash1_lt hc 3 (Point.mul E.curve E.curve.G e.r2)) (response_lt hc e.r2 e.b2 _)
    (hash1_lt hc 4 (Point.mul E.curve E.curve.G e.r3)) (response_lt hc e.r3 e.b3 _)
    (hash2_lt hc 5 (Point.mul E.curve G3 e.r5) (comb2 E.curve E.curve.G e.r5 G2 e.r6)) (response_lt hc e.r5 e.r4 _)
    (response_lt hc e.r6 y _) n2 n3 n5 n6 n9 n10 n11
  have e2 : Point.mul E.curve (Point.mul E.curve E.curve.G e.b2) a2 = G2 := by rw [h2]; exact mul_comm_pt (inSub_G hc).1 _ _
  have e3 : Point.mul E.curve (Point.mul E.curve E.curve.G e.b3) a3 = G3 := by rw [h3]; exact mul_comm_pt (inSub_G hc).1 _ _
  have : dispatch E host ⟨T2, message2 E G2 G3 y e⟩ rnd A =
      .ok (some (after2 E x a2 a3 (Point.mul E.curve E.curve.G e.b2) (Point.mul E.curve E.curve.G e.b3)
          (Point.mul E.curve G3 e.r4) (comb2 E.curve E.curve.G e.r4 G2 y) rnd A).1,
        (after2 E x a2 a3 (Point.mul E.curve E.curve.G e.b2) (Point.mul E.curve E.curve.G e.b3)
          (Point.mul E.curve G3 e.r4) (comb2 E.curve E.curve.G e.r4 G2 y) rnd A).2) := by
    simp only [dispatch, if_neg (show ¬ T2 = TAbort by decide), if_neg (show ¬ T2 = T1 by decide), if_true, handle2, hst]
    rw [message2, hr]
    simp only [Res.bind_ok, check2, (verify_iff b2.on).mpr b2, (verify_iff b3.on).mpr b3, base_eq hc (inSub_G hc),
      compareScalars_self n2, compareScalars_self n5, e2, e3, (verify_iff k2.on).mpr k2, (verify_iff k3.on).mpr k3,
      base_eq hc k3.inSub, pair_eq hc (inSub_G hc) k2.inSub, compareScalars_self n9]
    simp only [after2, e2, e3]
    rfl
  rw [handle, this]

theorem honest3 {host : SMPHost} {B : SMP4Context} {rnd : Rand} {x a3 b3 : Nat} {e : SMP.Exps3} {G2 G3 Pb Qb : Point}
    (hst : B.state = .expect3 (Point.mul E.curve E.curve.G a3) G2 G3 b3 Pb Qb) (k2 : InSub E.curve G2) (k3 : InSub E.curve G3)
    (hD : InSub E.curve (sub E.curve (comb2 E.curve E.curve.G e.r4 G2 x) Qb))
    (hn : Nontrivial4 (sent3 E G2 G3 x a3 (sub E.curve (comb2 E.curve E.curve.G e.r4 G2 x) Qb) e)) :
    handle E host ⟨T3, message3 E G2 G3 x a3 (sub E.curve (comb2 E.curve E.curve.G e.r4 G2 x) Qb) e⟩ rnd B =
      (.ok (some (reply4 E (sub E.curve (comb2 E.curve E.curve.G e.r4 G2 x) Qb) b3 rnd)), { B with
        state := .expect1, status := final E (Point.mul E.curve (sub E.curve (comb2 E.curve E.curve.G e.r4 G2 x) Qb) a3) b3
          (Point.mul E.curve G3 e.r4) Pb }) := by
  have := Fact.mk hc.field.prime
  have := hc.field.good
  generalize hDe : sub E.curve (comb2 E.curve E.curve.G e.r4 G2 x) Qb = D at *
  simp only [Nontrivial4, sent3, fields3, List.forall_mem_cons, ne_eq, Field4.point.injEq, Field4.scalar.injEq, reduceCtorEq,
    not_false_eq_true, and_true, true_and, List.not_mem_nil, false_implies, implies_true] at hn
  obtain ⟨n1, n2, n3, n4, n5, n6, n7, n8⟩ := hn
  have g1 : GoodKey E.curve (Point.mul E.curve G3 e.r4) := goodKey_iff.mpr ⟨k3.mul _, n1⟩
  have g2 : GoodKey E.curve (comb2 E.curve E.curve.G e.r4 G2 x) := goodKey_iff.mpr ⟨(inSub_G hc).comb2 k2 _ _, n2⟩
  have g3 : GoodKey E.curve (Point.mul E.curve D a3) := goodKey_iff.mpr ⟨hD.mul _, n6⟩
  have hr := readMsg3_w hc g1.on g2.on g3.on (hash2_lt hc 6 (Point.mul E.curve G3 e.r5) (comb2 E.curve E.curve.G e.r5 G2 e.r6))
    (response_lt hc e.r5 e.r4 _) (response_lt hc e.r6 x _)
    (hash2_lt hc 7 (Point.mul E.curve E.curve.G e.r7) (Point.mul E.curve D e.r7)) (response_lt hc e.r7 a3 _) n3 n4 n5 n7 n8
  have : dispatch E host ⟨T3, message3 E G2 G3 x a3 D e⟩ rnd B =
      .ok (some (reply4 E D b3 rnd), { B with
        state := .expect1, status := final E (Point.mul E.curve D a3) b3 (Point.mul E.curve G3 e.r4) Pb }) := by
    simp only [dispatch, if_neg (show ¬ T3 = TAbort by decide), if_neg (show ¬ T3 = T1 by decide),
      if_neg (show ¬ T3 = T2 by decide), if_true, handle3, hst]
    rw [message3, hr]
    simp only [Res.bind_ok, check3, (verify_iff g1.on).mpr g1, (verify_iff g2.on).mpr g2, (verify_iff g3.on).mpr g3,
      base_eq hc (inSub_G hc), base_eq hc k3, base_eq hc hD, pair_eq hc (inSub_G hc) k2, hDe, compareScalars_self n3,
      compareScalars_self n7]
    rfl
  rw [handle, this]

theorem honest4 {host : SMPHost} {A : SMP4Context} {rnd : Rand} {a3 b3 r7 : Nat} {dP D : Point}
    (hst : A.state = .expect4 (Point.mul E.curve E.curve.G b3) dP D a3) (hD : InSub E.curve D)
    (hn : Nontrivial4 (sent4 E D b3 r7)) :
    handle E host ⟨T4, message4 E D b3 r7⟩ rnd A =
      (.ok .none, ⟨.expect1,
        if comparePoints (Point.mul E.curve (Point.mul E.curve D b3) a3) dP = .ok () then SMPStatus.completed else .aborted,
        A.us, A.them, A.ssid⟩) := by
  have := Fact.mk hc.field.prime
  have := hc.field.good
  simp only [Nontrivial4, sent4, fields4, List.forall_mem_cons, ne_eq, Field4.point.injEq, Field4.scalar.injEq, reduceCtorEq,
    not_false_eq_true, and_true, true_and, List.not_mem_nil, false_implies, implies_true] at hn
  obtain ⟨n1, n2, n3⟩ := hn
  have g1 : GoodKey E.curve (Point.mul E.curve D b3) := goodKey_iff.mpr ⟨hD.mul _, n1⟩
  have hr := readMsg4_w hc g1.on (hash2_lt hc 8 (Point.mul E.curve E.curve.G r7) (Point.mul E.curve D r7))
    (response_lt hc r7 b3 _) n2 n3
  have hd : dispatch E host ⟨T4, message4 E D b3 r7⟩ rnd A =
      (do comparePoints (Point.mul E.curve (Point.mul E.curve D b3) a3) dP
          return (.none, { A with state := .expect1, status := .completed })) := by
    simp only [dispatch, if_neg (show ¬ T4 = TAbort by decide), if_neg (show ¬ T4 = T1 by decide),
      if_neg (show ¬ T4 = T2 by decide), if_neg (show ¬ T4 = T3 by decide), if_true, handle4, hst]
    rw [message4, hr]
    simp only [Res.bind_ok, check4, (verify_iff g1.on).mpr g1, base_eq hc (inSub_G hc), base_eq hc hD, compareScalars_self n2]
  rw [handle, hd]
  cases hcm : comparePoints (Point.mul E.curve (Point.mul E.curve D b3) a3) dP with
  | ok u => rfl
  | err e => rfl
  | panic => exact absurd hcm (compareBytes_ne_panic _ _)

end honest

/-! ## The exchange -/

/-- The result of the comparison. -/
def outcome (E : Env) (x y : Nat) : SMPStatus := if x % E.curve.q = y % E.curve.q then .completed else .aborted

theorem order_G {E : Env} (hc : SmpCurve E.curve) [Fact (Nat.Prime E.curve.p)] [Good ((E.curve.d : Int) : ZMod E.curve.p)] :
    ∃ g : Pt ((E.curve.d : Int) : ZMod E.curve.p), Rep E.curve.G g ∧ addOrderOf g = E.curve.q := by
  obtain ⟨g, h1, h2⟩ := (inSub_G hc.good).rep
  refine ⟨g, h1, ?_⟩
  have := Fact.mk hc.prime
  exact addOrderOf_eq_prime h2 fun h0 => hc.base_ne ((h1.eq_iff rep_identity).mpr h0)

/-- A complete exchange, between clients whose secrets, fingerprints and SSIDs may differ, the types of its TLVs, and the contexts at the end. -/
theorem run4_any {E : Env} (hc : SmpCurve E.curve) {hostB hostA3 hostB4 hostA5 : SMPHost} {A B : SMP4Context} {q sA sB : Bytes}
    (hA : A.status ≠ .inProgress) (hB : B.state = .expect1)
    (hq : q.length < 2 ^ 32) (hans : hostB.secret q = some sB) (r1 r2 r3 r4 r5 : Rand)
    (ha : ∀ i ∈ [0, 1], random E r1 i % E.curve.q ≠ 0) (hb : ∀ i ∈ [0, 1, 4], random E r2 i % E.curve.q ≠ 0)
    {x y : Nat}
    (hx' : computeSecret E A.us A.them A.ssid sA = x) (hy' : computeSecret E B.them B.us B.ssid sB = y)
    (hQ : (random E r2 4 + random E r1 0 * random E r2 0 * y) % E.curve.q ≠ 0) :
    ∃ m1 A1 v1, start E sA q r1 A = (.ok m1, A1) ∧ A1.status = .inProgress ∧ isSmpTlv m1 = true ∧
      (∃ G2a c2 d2 G3a c3 d3, v1 = fields1 G2a c2 d2 G3a c3 d3) ∧ Carries E.curve q v1 m1 ∧ (Nontrivial4 v1 →
    ∃ m2 B1 v2, handle E hostB m1 r2 B = (.ok (some m2), B1) ∧ B1.status = .inProgress ∧ isSmpTlv m2 = true ∧
      (∃ G2b c2 d2 G3b c3 d3 Pb Qb cp d5 d6, v2 = fields2 G2b c2 d2 G3b c3 d3 Pb Qb cp d5 d6) ∧ Carries E.curve [] v2 m2 ∧
      (Nontrivial4 v2 →
    ∃ m3 A2 v3, handle E hostA3 m2 r3 A1 = (.ok (some m3), A2) ∧ A2.status = .inProgress ∧ isSmpTlv m3 = true ∧
      (∃ Pa Qa cp d5 d6 Ra cr d7, v3 = fields3 Pa Qa cp d5 d6 Ra cr d7) ∧ Carries E.curve [] v3 m3 ∧
      (Nontrivial4 v3 →
    ∃ m4 B2 v4, handle E hostB4 m3 r4 B1 = (.ok (some m4), B2) ∧
      B2.status = outcome E x y ∧
      B2.state = .expect1 ∧ B2.us = B.us ∧ B2.them = B.them ∧ B2.ssid = B.ssid ∧ isSmpTlv m4 = true ∧
      (∃ Rb cr d7, v4 = fields4 Rb cr d7) ∧
      Carries E.curve [] v4 m4 ∧ (Nontrivial4 v4 →
    ∃ A3, handle E hostA5 m4 r5 A2 = (.ok .none, A3) ∧
      A3.status = outcome E x y ∧
      A3.state = .expect1 ∧ A3.us = A.us ∧ A3.them = A.them ∧ A3.ssid = A.ssid)))) := by
  have := Fact.mk hc.good.field.prime
  have := hc.good.field.good
  have hG := inSub_G hc.good
  have gk := goodKey_G hc
  simp only [List.forall_mem_cons, List.not_mem_nil, false_implies, implies_true, and_true] at ha hb
  obtain ⟨ha2, ha3⟩ := ha
  obtain ⟨hb2, hb3, hb4⟩ := hb
  rw [show random E r2 0 = (draw2 E r2).b2 from rfl] at hb2 hQ
  rw [show random E r2 1 = (draw2 E r2).b3 from rfl] at hb3
  rw [show random E r2 4 = (draw2 E r2).r4 from rfl] at hb4 hQ
  have hst := start_of hc (secret := sA) (q := q) hA ha2 ha3
  rw [hx'] at hst
  generalize random E r1 0 = a2 at *
  generalize random E r1 1 = a3 at *
  generalize random E r1 2 = ρ2 at *
  generalize random E r1 3 = ρ3 at *
  refine ⟨_, _, _, hst, rfl, rfl, ⟨_, _, _, _, _, _, rfl⟩, carries1 hc.good hq a2 a3 ρ2 ρ3, fun n1 => ?_⟩
  clear hst
  -- message 2
  obtain ⟨g, hg, ho⟩ := order_G hc
  have hg0 : E.curve.q • g = 0 := (inSub_iff hg).mp hG
  have k2a := goodKey_mul hc gk ha2
  have k3a := goodKey_mul hc gk ha3
  have k2 := goodKey_mul hc k2a hb2
  have k3 := goodKey_mul hc k3a hb3
  have kP := goodKey_mul hc k3 hb4
  have rep2 := ((hg.mul a2).mul ((draw2 E r2).b2))
  have rep3 := ((hg.mul a3).mul ((draw2 E r2).b3))
  have repP := rep3.mul ((draw2 E r2).r4)
  have repQ := (hg.mul ((draw2 E r2).r4)).add (rep2.mul y)
  have kQ : GoodKey E.curve (comb2 E.curve E.curve.G ((draw2 E r2).r4)
      (Point.mul E.curve (Point.mul E.curve E.curve.G a2) ((draw2 E r2).b2)) y) := by
    refine goodKey_iff.mpr ⟨hG.comb2 k2.inSub _ _, fun h => hQ ?_⟩
    have h' := (repQ.eq_iff rep_identity).mp h
    rw [← mul_smul, ← mul_smul, ← add_smul, ← addOrderOf_dvd_iff_nsmul_eq_zero, ho] at h'
    rw [show (draw2 E r2).r4 + a2 * (draw2 E r2).b2 * y = (draw2 E r2).r4 + y * (draw2 E r2).b2 * a2 by ring]
    exact Nat.mod_eq_zero_of_dvd h'
  have hgood : Good1 E sB (Point.mul E.curve E.curve.G a2) (Point.mul E.curve E.curve.G a3) r2 B := by
    simp only [Good1, hy']
    exact ⟨k2, k3, kP, kQ⟩
  have hh1 := honest1 hc.good hB hq hans n1 hgood
  simp only [after1, hy'] at hh1
  generalize draw2 E r2 = e at *
  generalize hG2 : Point.mul E.curve (Point.mul E.curve E.curve.G a2) e.b2 = G2 at *
  generalize hG3 : Point.mul E.curve (Point.mul E.curve E.curve.G a3) e.b3 = G3 at *
  refine ⟨_, _, _, hh1, rfl, rfl, ⟨_, _, _, _, _, _, _, _, _, _, _, rfl⟩, carries2 hc.good k2.inSub k3.inSub y e, fun n2 => ?_⟩
  clear hh1
  -- message 3
  have hh2 := honest2 hc.good (host := hostA3) (rnd := r3) (A := ⟨.expect2 x a2 a3, .inProgress, A.us, A.them, A.ssid⟩) rfl
    hG2.symm hG3.symm k2 k3 n2
  have e2 : Point.mul E.curve (Point.mul E.curve E.curve.G e.b2) a2 = G2 := by rw [← hG2]; exact mul_comm_pt hG.1 _ _
  have e3 : Point.mul E.curve (Point.mul E.curve E.curve.G e.b3) a3 = G3 := by rw [← hG3]; exact mul_comm_pt hG.1 _ _
  simp only [after2, e2, e3] at hh2
  generalize draw3 E r3 = f at *
  have hD : InSub E.curve (sub E.curve (comb2 E.curve E.curve.G f.r4 G2 (x % E.curve.q)) (comb2 E.curve E.curve.G e.r4 G2 y)) :=
    (hG.comb2 k2.inSub _ _).sub kQ.inSub (.inr (x_ne_zero hc.good kQ))
  refine ⟨_, _, _, hh2, rfl, rfl, ⟨_, _, _, _, _, _, _, _, rfl⟩, carries3 hc.good k2.inSub k3.inSub hD _ a3 f, fun n3 => ?_⟩
  clear hh2
  -- message 4
  have hh3 := honest3 hc.good (host := hostB4) (rnd := r4) (b3 := e.b3) (Pb := Point.mul E.curve G3 e.r4)
    (B := ⟨.expect3 (Point.mul E.curve E.curve.G a3) G2 G3 e.b3 (Point.mul E.curve G3 e.r4)
      (comb2 E.curve E.curve.G e.r4 G2 y), .inProgress, B.us, B.them, B.ssid⟩) rfl k2.inSub k3.inSub hD n3
  have repQa := (hg.mul f.r4).add (rep2.mul (x % E.curve.q))
  have repD := rep_sub repQa repQ (.inr (x_ne_zero hc.good kQ))
  have repPa := rep3.mul f.r4
  have repDP := rep_sub repPa repP (.inr (x_ne_zero hc.good kP))
  have hm : (a2 * e.b2) % E.curve.q ≠ 0 := mul_mod_ne hc.prime ha2 hb2
  have hn : (a3 * e.b3) % E.curve.q ≠ 0 := mul_mod_ne hc.prime ha3 hb3
  have hfin : ∀ R : Point, Rep R ((a3 * e.b3) • (f.r4 • g + (x % E.curve.q) • e.b2 • a2 • g - (e.r4 • g + y • e.b2 • a2 • g))) →
      ((if comparePoints R (sub E.curve (Point.mul E.curve G3 f.r4) (Point.mul E.curve G3 e.r4)) = .ok ()
        then SMPStatus.completed else .aborted) = outcome E x y) := by
    intro R hR
    have hRs : InSub E.curve R := (inSub_iff hR).mpr (by
      rw [smul_comm]
      simp only [smul_sub, smul_add, smul_comm E.curve.q, hg0, smul_zero, add_zero, sub_zero])
    have hkey : comparePoints R (sub E.curve (Point.mul E.curve G3 f.r4) (Point.mul E.curve G3 e.r4)) = .ok () ↔
        x % E.curve.q = y % E.curve.q := by
      rw [comparePoints_eq hc.good hRs repDP.onCurve, hR.eq_iff repDP]
      have hf := final_pt ho (a2 * e.b2) (a3 * e.b3) f.r4 e.r4 (x % E.curve.q) y
      rw [cancel_mod hc.prime (mul_mod_ne hc.prime hm hn), Nat.mod_mod] at hf
      rw [← hf, show e.b2 • a2 • g = (a2 * e.b2) • g by rw [← mul_smul, Nat.mul_comm],
        show e.b3 • a3 • g = (a3 * e.b3) • g by rw [← mul_smul, Nat.mul_comm]]
    simp only [hkey, outcome]
  refine ⟨_, _, _, hh3, ?_, rfl, rfl, rfl, rfl, rfl, ⟨_, _, _, rfl⟩, carries4 hc.good hD e.b3 (random E r4 0), fun n4 => ?_⟩
  · refine hfin _ ?_
    have := (repD.mul a3).mul e.b3
    rwa [← mul_smul, Nat.mul_comm] at this
  have hh4 := honest4 hc.good (host := hostA5) (rnd := r5) (b3 := e.b3) (a3 := a3)
    (A := ⟨.expect4 (Point.mul E.curve E.curve.G e.b3) (sub E.curve (Point.mul E.curve G3 f.r4) (Point.mul E.curve G3 e.r4))
      (sub E.curve (comb2 E.curve E.curve.G f.r4 G2 (x % E.curve.q)) (comb2 E.curve E.curve.G e.r4 G2 y)) a3, .inProgress,
      A.us, A.them, A.ssid⟩) rfl hD n4
  refine ⟨_, hh4, ?_, rfl, rfl, rfl, rfl⟩
  refine hfin _ ?_
  have := (repD.mul e.b3).mul a3
  rwa [← mul_smul] at this

/-- A complete exchange, with secrets that may differ, the types of its TLVs, and the contexts at the end. -/
theorem run4_types {E : Env} (hc : SmpCurve E.curve) {hostB hostA3 hostB4 hostA5 : SMPHost} {A B : SMP4Context} {q sA sB : Bytes}
    (hA : A.status ≠ .inProgress) (hB : B.state = .expect1) (h1 : A.us = B.them) (h2 : A.them = B.us) (h3 : A.ssid = B.ssid)
    (hq : q.length < 2 ^ 32) (hans : hostB.secret q = some sB) (r1 r2 r3 r4 r5 : Rand)
    (ha : ∀ i ∈ [0, 1], random E r1 i % E.curve.q ≠ 0) (hb : ∀ i ∈ [0, 1, 4], random E r2 i % E.curve.q ≠ 0)
    (hQ : (random E r2 4 + random E r1 0 * random E r2 0 * secretNumber4 E A.us A.them A.ssid sB) % E.curve.q ≠ 0) :
    ∃ m1 A1 v1, start E sA q r1 A = (.ok m1, A1) ∧ A1.status = .inProgress ∧ isSmpTlv m1 = true ∧
      (∃ G2a c2 d2 G3a c3 d3, v1 = fields1 G2a c2 d2 G3a c3 d3) ∧ Carries E.curve q v1 m1 ∧ (Nontrivial4 v1 →
    ∃ m2 B1 v2, handle E hostB m1 r2 B = (.ok (some m2), B1) ∧ B1.status = .inProgress ∧ isSmpTlv m2 = true ∧
      (∃ G2b c2 d2 G3b c3 d3 Pb Qb cp d5 d6, v2 = fields2 G2b c2 d2 G3b c3 d3 Pb Qb cp d5 d6) ∧ Carries E.curve [] v2 m2 ∧
      (Nontrivial4 v2 →
    ∃ m3 A2 v3, handle E hostA3 m2 r3 A1 = (.ok (some m3), A2) ∧ A2.status = .inProgress ∧ isSmpTlv m3 = true ∧
      (∃ Pa Qa cp d5 d6 Ra cr d7, v3 = fields3 Pa Qa cp d5 d6 Ra cr d7) ∧ Carries E.curve [] v3 m3 ∧
      (Nontrivial4 v3 →
    ∃ m4 B2 v4, handle E hostB4 m3 r4 B1 = (.ok (some m4), B2) ∧
      B2.status = outcome E (secretNumber4 E A.us A.them A.ssid sA) (secretNumber4 E A.us A.them A.ssid sB) ∧
      B2.state = .expect1 ∧ B2.us = B.us ∧ B2.them = B.them ∧ B2.ssid = B.ssid ∧ isSmpTlv m4 = true ∧
      (∃ Rb cr d7, v4 = fields4 Rb cr d7) ∧
      Carries E.curve [] v4 m4 ∧ (Nontrivial4 v4 →
    ∃ A3, handle E hostA5 m4 r5 A2 = (.ok .none, A3) ∧
      A3.status = outcome E (secretNumber4 E A.us A.them A.ssid sA) (secretNumber4 E A.us A.them A.ssid sB) ∧
      A3.state = .expect1 ∧ A3.us = A.us ∧ A3.them = A.them ∧ A3.ssid = A.ssid)))) :=
  run4_any hc hA hB hq hans r1 r2 r3 r4 r5 ha hb rfl (by rw [← h1, ← h2, ← h3]; rfl) hQ

theorem run4 {E : Env} (hc : SmpCurve E.curve) {hostA hostB : SMPHost} {A B : SMP4Context} {q sA sB : Bytes}
    (hA : A.status ≠ .inProgress) (hB : B.state = .expect1) (h1 : A.us = B.them) (h2 : A.them = B.us) (h3 : A.ssid = B.ssid)
    (hq : q.length < 2 ^ 32) (hans : hostB.secret q = some sB) (r1 r2 r3 r4 r5 : Rand)
    (ha : ∀ i ∈ [0, 1], random E r1 i % E.curve.q ≠ 0) (hb : ∀ i ∈ [0, 1, 4], random E r2 i % E.curve.q ≠ 0)
    (hQ : (random E r2 4 + random E r1 0 * random E r2 0 * secretNumber4 E A.us A.them A.ssid sB) % E.curve.q ≠ 0) :
    ∃ m1 A1 v1, start E sA q r1 A = (.ok m1, A1) ∧ A1.status = .inProgress ∧ Carries E.curve q v1 m1 ∧ (Nontrivial4 v1 →
    ∃ m2 B1 v2, handle E hostB m1 r2 B = (.ok (some m2), B1) ∧ B1.status = .inProgress ∧ Carries E.curve [] v2 m2 ∧
      (Nontrivial4 v2 →
    ∃ m3 A2 v3, handle E hostA m2 r3 A1 = (.ok (some m3), A2) ∧ A2.status = .inProgress ∧ Carries E.curve [] v3 m3 ∧
      (Nontrivial4 v3 →
    ∃ m4 B2 v4, handle E hostB m3 r4 B1 = (.ok (some m4), B2) ∧
      B2.status = outcome E (secretNumber4 E A.us A.them A.ssid sA) (secretNumber4 E A.us A.them A.ssid sB) ∧
      Carries E.curve [] v4 m4 ∧ (Nontrivial4 v4 →
    ∃ A3, handle E hostA m4 r5 A2 = (.ok .none, A3) ∧
      A3.status = outcome E (secretNumber4 E A.us A.them A.ssid sA) (secretNumber4 E A.us A.them A.ssid sB))))) := by
  obtain ⟨m1, A1, v1, h1, h2, _, _, h3, k⟩ := run4_types hc (sA := sA) hA hB h1 h2 h3 hq hans r1 r2 r3 r4 r5 ha hb hQ
    (hostA3 := hostA) (hostB4 := hostB) (hostA5 := hostA)
  refine ⟨m1, A1, v1, h1, h2, h3, fun p => ?_⟩
  obtain ⟨m2, B1, v2, h1, h2, _, _, h3, k⟩ := k p
  refine ⟨m2, B1, v2, h1, h2, h3, fun p => ?_⟩
  obtain ⟨m3, A2, v3, h1, h2, _, _, h3, k⟩ := k p
  refine ⟨m3, A2, v3, h1, h2, h3, fun p => ?_⟩
  obtain ⟨m4, B2, v4, h1, h2, _, _, _, _, _, _, h3, k⟩ := k p
  refine ⟨m4, B2, v4, h1, h2, h3, fun p => ?_⟩
  obtain ⟨A3, h1, h2, _⟩ := k p
  exact ⟨A3, h1, h2⟩

/-! ## The fields of a message are determined by its bytes -/

theorem fields_unique {c : Curve} (hc : GoodField c) {v w : List Field4} {b : Bytes} (hv : Fields c v b) (hw : Fields c w b)
    (hs : v.map (fun f => match f with | .point _ => true | .scalar _ => false) =
      w.map (fun f => match f with | .point _ => true | .scalar _ => false)) : v = w := by
  induction hv generalizing w with
  | nil =>
    cases w with
    | nil => rfl
    | cons => cases hs
  | @point P e v b h1 h2 h3 _ ih =>
    generalize hb : e ++ b = b' at hw
    cases hw with
    | nil => cases hs
    | @point P' e' v' b' h1' h2' h3' hv' =>
      obtain ⟨rfl, rfl⟩ := List.append_inj hb (by omega)
      rw [encode_inj hc h2 h2' (h3.trans h3'.symm), ih hv' (List.cons.inj hs).2]
    | scalar => cases (List.cons.inj hs).1
  | @scalar s v b h1 _ ih =>
    generalize hb : s ++ b = b' at hw
    cases hw with
    | nil => cases hs
    | point => cases (List.cons.inj hs).1
    | @scalar s' v' b' h1' hv' =>
      obtain ⟨rfl, rfl⟩ := List.append_inj hb (by omega)
      rw [ih hv' (List.cons.inj hs).2]

theorem wData_inj {q q' b b' : Bytes} (h : wData q ++ b = wData q' ++ b') (hq : q.length < 2 ^ 32) (hq' : q'.length < 2 ^ 32) :
    q = q' ∧ b = b' := by
  have h1 := readData_w (d := q) (by simpa [dataOk] using hq) b
  have h2 := readData_w (d := q') (by simpa [dataOk] using hq') b'
  rw [h, h2] at h1
  simp only [Res.ok.injEq, Prod.mk.injEq] at h1
  exact ⟨h1.1.symm, h1.2.symm⟩

theorem carries_unique {c : Curve} (hc : GoodField c) {q q' : Bytes} {v w : List Field4} {t : TLV} (hv : Carries c q v t)
    (hw : Carries c q' w t) (hs : v.map (fun f => match f with | .point _ => true | .scalar _ => false) =
      w.map (fun f => match f with | .point _ => true | .scalar _ => false)) : q = q' ∧ v = w := by
  rcases hv with ⟨h1, h2, b, h3, h4⟩ | ⟨h1, h2, h3⟩ <;> rcases hw with ⟨h1', h2', b', h3', h4'⟩ | ⟨h1', h2', h3'⟩
  · obtain ⟨rfl, rfl⟩ := wData_inj (h3.symm.trans h3') h2 h2'
    exact ⟨rfl, fields_unique hc h4 h4' hs⟩
  · exact absurd h1 h1'
  · exact absurd h1' h1
  · exact ⟨h2.trans h2'.symm, fields_unique hc h3 h3' hs⟩

end SMP4

end Otrr
