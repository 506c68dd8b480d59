import Verif.Spec.Smp4
import Verif.Lemmas.Ring
import Verif.Lemmas.Messages
/-!
Lemmas about the model of SMP in OTRv4: the group of points, and reading messages.
-/

namespace Otrr
open Spec Edwards

namespace SMP4

/-! ## The group -/

/-- A point of the curve killed by `q`. -/
def InSub (c : Curve) (P : Point) : Prop := OnCurve c P ∧ Point.mul c P c.q = Point.identity

theorem _root_.Otrr.Spec.GoodKey.inSub {c : Curve} {P : Point} (h : GoodKey c P) : InSub c P := ⟨h.on, h.order⟩

theorem goodKey_iff {c : Curve} {P : Point} : GoodKey c P ↔ InSub c P ∧ P ≠ Point.identity :=
  ⟨fun h => ⟨h.inSub, h.ne⟩, fun h => ⟨h.1.1, h.2, h.1.2⟩⟩

section
variable {c : Curve} [hf : Fact (Nat.Prime c.p)] [hg : Good ((c.d : Int) : ZMod c.p)]

theorem inSub_iff {P : Point} {A : Pt ((c.d : Int) : ZMod c.p)} (h : Rep P A) : InSub c P ↔ c.q • A = 0 :=
  ⟨fun hs => ((h.mul c.q).eq_iff rep_identity).mp hs.2,
   fun hs => ⟨h.onCurve, ((h.mul c.q).eq_iff rep_identity).mpr hs⟩⟩

theorem InSub.rep {P : Point} (h : InSub c P) : ∃ A : Pt ((c.d : Int) : ZMod c.p), Rep P A ∧ c.q • A = 0 := by
  obtain ⟨A, hA⟩ := OnCurve.rep h.1
  exact ⟨A, hA, (inSub_iff hA).mp h⟩

omit hg in
theorem sub_lt {P R : Point} (hP : OnCurve c P) (hR : OnCurve c R) (h : P ≠ Point.identity ∨ R.x ≠ 0) :
    (sub c P R).x < c.p ∧ (sub c P R).y < c.p := by
  unfold SMP4.sub Point.add
  split
  · rename_i hid
    rw [Point.isIdentity_iff] at hid
    have h0 : R.x ≠ 0 := by tauto
    have := hR.x_lt
    refine ⟨?_, hR.y_lt⟩
    simp only [Point.neg]
    omega
  · split
    · exact ⟨hP.x_lt, hP.y_lt⟩
    · simp only
      exact ⟨modFloor_lt hf.out.pos _, modFloor_lt hf.out.pos _⟩

theorem sub_coord {P R : Point} {A B : Pt ((c.d : Int) : ZMod c.p)} (hP : Rep P A) (hR : Rep R B) :
    Coord (sub c P R) (A - B) := by
  rw [sub_eq_add_neg]
  exact hP.2.2.add (hR.2.2.neg (Nat.le_of_lt hR.1))

theorem rep_sub {P R : Point} {A B : Pt ((c.d : Int) : ZMod c.p)} (hP : Rep P A) (hR : Rep R B)
    (h : P ≠ Point.identity ∨ R.x ≠ 0) : Rep (sub c P R) (A - B) := by
  obtain ⟨h1, h2⟩ := sub_lt hP.onCurve hR.onCurve h
  exact ⟨h1, h2, sub_coord hP hR⟩

/-- If a point of the curve is encoded like a difference, it is the difference. -/
theorem encode_sub {P R S : Point} {A B C : Pt ((c.d : Int) : ZMod c.p)} (hF : GoodField c) (hP : Rep P A) (hR : Rep R B)
    (hS : Rep S C) (h : S.encode = (sub c P R).encode) : C = A - B := by
  by_cases hid : P ≠ Point.identity ∨ R.x ≠ 0
  · have h1 := rep_sub hP hR hid
    exact (hS.eq_iff h1).mp (encode_inj hF hS.onCurve h1.onCurve h)
  · exfalso
    push Not at hid
    obtain ⟨h1, h2⟩ := hid
    have hodd := hF.mod4
    have hsx : (sub c P R).x = c.p := by simp [SMP4.sub, Point.add, h1, Point.isIdentity_iff.mpr, Point.neg, h2]
    have hsy : (sub c P R).y = R.y := by simp [SMP4.sub, Point.add, h1, Point.isIdentity_iff.mpr, Point.neg]
    simp only [Point.encode, hsx, hsy] at h
    obtain ⟨e1, e2⟩ := List.append_inj' h rfl
    have hy : S.y = R.y := by
      have := congrArg leNat e1
      rwa [leNat_leBytes_of_lt (Nat.lt_trans hS.2.1 hF.small), leNat_leBytes_of_lt (Nat.lt_trans hR.2.1 hF.small)] at this
    have hBx : B.x = 0 := by rw [← hR.2.2.1, h2]; simp
    have hCy : C.y = B.y := by rw [← hS.2.2.2, ← hR.2.2.2, hy]
    have hy1 : C.y ^ 2 = 1 := by
      have := B.on
      rw [hBx] at this
      rw [hCy]
      simpa using this
    have hCx : C.x = 0 := by
      have h3 := C.on
      rw [hy1] at h3
      have h4 : (1 - ((c.d : Int) : ZMod c.p)) * C.x ^ 2 = 0 := by linear_combination h3
      rcases mul_eq_zero.mp h4 with h5 | h5
      · exfalso
        exact hg.nonsq 1 (by linear_combination h5)
      · exact pow_eq_zero_iff (by decide) |>.mp h5
    have hSx : S.x = 0 := by
      have := hS.2.2.1
      rw [hCx] at this
      have := (ZMod.natCast_eq_zero_iff _ _).mp this
      exact Nat.eq_zero_of_dvd_of_lt this hS.1
    rw [hSx] at e2
    have hp : c.p % 2 = 1 := by omega
    simp [hp] at e2

variable (hc : GoodCurve c)
include hc

omit hf hg in
theorem pos_q : 0 < c.q := by have := hc.big; omega

theorem response_smul {k : Pt ((c.d : Int) : ZMod c.p)} (hk : c.q • k = 0) (r a ch : Nat) :
    response c r a ch • k + ch • a • k = r • k := by
  rw [response, zsmul_modFloor (pos_q hc) hk, sub_zsmul, natCast_zsmul, natCast_zsmul, nsmul_mod hk, ← mul_smul,
    Nat.mul_comm ch, neg_add_cancel_right]

/-- An honest proof of knowledge is accepted. -/
theorem base_eq {K : Point} (hK : InSub c K) (r a ch : Nat) :
    comb2 c K (response c r a ch) (Point.mul c K a) ch = Point.mul c K r := by
  obtain ⟨k, h1, h2⟩ := hK.rep
  refine (((h1.mul _).add ((h1.mul a).mul ch)).eq_iff (h1.mul r)).mpr ?_
  exact response_smul hc h2 r a ch

theorem pair_eq {K L : Point} (hK : InSub c K) (hL : InSub c L) (r4 r5 r6 y ch : Nat) :
    comb3 c K (response c r5 r4 ch) L (response c r6 y ch) (comb2 c K r4 L y) ch = comb2 c K r5 L r6 := by
  obtain ⟨k, h1, h2⟩ := hK.rep
  obtain ⟨l, h3, h4⟩ := hL.rep
  refine ((((h1.mul _).add (h3.mul _)).add (((h1.mul r4).add (h3.mul y)).mul ch)).eq_iff
    ((h1.mul r5).add (h3.mul r6))).mpr ?_
  rw [← response_smul hc h2 r5 r4 ch, ← response_smul hc h4 r6 y ch, smul_add]
  abel

omit hf hg in
theorem inSub_G : InSub c c.G := ⟨hc.base, hc.order⟩

omit hc in
theorem InSub.mul {P : Point} (h : InSub c P) (n : Nat) : InSub c (Point.mul c P n) := by
  obtain ⟨A, h1, h2⟩ := h.rep
  rw [inSub_iff (h1.mul n), smul_comm, h2, smul_zero]

omit hc in
theorem InSub.add {P R : Point} (h : InSub c P) (h' : InSub c R) : InSub c (Point.add c P R) := by
  obtain ⟨A, h1, h2⟩ := h.rep
  obtain ⟨B, h3, h4⟩ := h'.rep
  rw [inSub_iff (h1.add h3), smul_add, h2, h4, add_zero]

omit hc in
theorem InSub.comb2 {P R : Point} (h : InSub c P) (h' : InSub c R) (x y : Nat) : InSub c (comb2 c P x R y) :=
  (h.mul x).add (h'.mul y)

omit hc in
theorem InSub.sub {P R : Point} (h : InSub c P) (h' : InSub c R) (hn : P ≠ Point.identity ∨ R.x ≠ 0) :
    InSub c (SMP4.sub c P R) := by
  obtain ⟨A, h1, h2⟩ := h.rep
  obtain ⟨B, h3, h4⟩ := h'.rep
  rw [inSub_iff (rep_sub h1 h3 hn), smul_sub, h2, h4, sub_zero]

omit hc in
theorem mul_comm_pt {P : Point} (h : OnCurve c P) (m n : Nat) :
    Point.mul c (Point.mul c P m) n = Point.mul c (Point.mul c P n) m := by
  obtain ⟨A, hA⟩ := OnCurve.rep h
  exact (((hA.mul m).mul n).eq_iff ((hA.mul n).mul m)).mpr (smul_comm _ _ _)

omit hc in
/-- Comparing a point of the curve killed by `q` with another point. -/
theorem comparePoints_ok {P R : Point} : comparePoints P R = .ok () ↔ P.encode = R.encode ∧ anyNonzero P.encode = true :=
  compareBytes_ok_iff

omit hf hg in
theorem comparePoints_eq (hP : InSub c P) (hR : OnCurve c R) : comparePoints P R = .ok () ↔ P = R := by
  rw [comparePoints_ok]
  constructor
  · intro h; exact encode_inj hc.field hP.1 hR h.1
  · rintro rfl; exact ⟨rfl, encode_nonzero hc hP.1 hP.2⟩

end

section order
variable {c : Curve} (h : SmpCurve c)
include h

/-- Multiples of a nontrivial point killed by `q`. -/
theorem mul_eq_identity {P : Point} (hP : GoodKey c P) (n : Nat) : Point.mul c P n = Point.identity ↔ n % c.q = 0 := by
  have := Fact.mk h.good.field.prime
  have := h.good.field.good
  obtain ⟨A, h1, h2⟩ := hP.inSub.rep
  have hA : A ≠ 0 := fun h0 => hP.ne ((h1.eq_iff rep_identity).mpr h0)
  have := Fact.mk h.prime
  have ho : addOrderOf A = c.q := addOrderOf_eq_prime h2 hA
  rw [(h1.mul n).eq_iff rep_identity, ← addOrderOf_dvd_iff_nsmul_eq_zero, ho, Nat.dvd_iff_mod_eq_zero]

theorem goodKey_mul {P : Point} (hP : GoodKey c P) {n : Nat} (hn : n % c.q ≠ 0) : GoodKey c (Point.mul c P n) := by
  have := Fact.mk h.good.field.prime
  have := h.good.field.good
  rw [goodKey_iff]
  exact ⟨hP.inSub.mul n, fun h' => hn ((mul_eq_identity h hP n).mp h')⟩

theorem goodKey_G : GoodKey c c.G := goodKey_iff.mpr ⟨inSub_G h.good, h.base_ne⟩

end order

/-! ## Reading -/

/-- A reader that panics only on 57 zero bytes in its input. -/
def ZeroPanic (d : Dec α) : Prop :=
  (∀ s, d s = .panic → List.replicate 57 0 <:+: s) ∧ ∀ s a s', d s = .ok (a, s') → s' <:+ s

theorem ZeroPanic.bind {x : Dec α} {f : α → Dec β} (hx : ZeroPanic x) (hf : ∀ a, ZeroPanic (f a)) :
    ZeroPanic (x >>= f) := by
  constructor
  · intro s h
    rcases Dec.bind_eq_panic.mp h with h | ⟨a, s', h1, h2⟩
    · exact hx.1 s h
    · exact ((hf a).1 s' h2).trans (hx.2 s a s' h1).isInfix
  · intro s b s'' h
    obtain ⟨a, s', h1, h2⟩ := Dec.bind_eq_ok.mp h
    exact ((hf a).2 s' b s'' h2).trans (hx.2 s a s' h1)

theorem ZeroPanic.pure (a : α) : ZeroPanic (Pure.pure a : Dec α) := by
  constructor
  · intro s h; simp at h
  · intro s b s' h
    simp only [Dec.pure_run, Res.ok.injEq, Prod.mk.injEq] at h
    rw [h.2]

theorem readN_suffix {n : Nat} {s e s' : Bytes} (h : readN n s = .ok (e, s')) : s = e ++ s' ∧ e.length = n := by
  unfold readN at h
  split at h
  · cases h
  · simp only [Res.ok.injEq, Prod.mk.injEq] at h
    obtain ⟨rfl, rfl⟩ := h
    exact ⟨(List.take_append_drop n s).symm, by simp; omega⟩

theorem ZeroPanic.readN (n : Nat) : ZeroPanic (readN n) := by
  constructor
  · intro s h; unfold Otrr.readN at h; split at h <;> cases h
  · intro s a s' h
    exact ⟨a, (readN_suffix h).1.symm⟩

theorem ZeroPanic.lift {r : Res α} (h : r ≠ .panic) : ZeroPanic (Dec.lift r) := by
  constructor
  · intro s h'
    cases r <;> simp_all [Dec.lift]
  · intro s a s' h'
    cases r <;> simp_all [Dec.lift]

theorem ZeroPanic.readPoint (c : Curve) : ZeroPanic (readPoint c) :=
  (ZeroPanic.readN 57).bind fun _ => .lift (Point.decode_ne_panic _ _)

theorem ZeroPanic.readScalar (c : Curve) : ZeroPanic (readScalar c) := by
  constructor
  · intro s h
    rcases Dec.bind_eq_panic.mp h with h | ⟨a, s', h1, h2⟩
    · exact (ZeroPanic.readN 57).1 s h
    · obtain ⟨h3, h4⟩ := readN_suffix h1
      have : a = List.replicate 57 0 := by
        unfold decodeScalar at h2
        split at h2
        · cases h2
        · rename_i hz
          have hz : allZero a = true := by simpa [anyNonzero] using hz
          rw [allZero_iff] at hz
          exact List.eq_replicate_iff.mpr ⟨h4, hz⟩
      rw [h3, this]
      exact ⟨[], s', rfl⟩
  · intro s a s' h
    obtain ⟨e, s1, h1, h2⟩ := Dec.bind_eq_ok.mp h
    have h3 : s1 = s' := by
      unfold decodeScalar at h2
      split at h2
      · simp only [Dec.lift, Res.ok.injEq, Prod.mk.injEq] at h2; exact h2.2
      · cases h2
    rw [← h3]
    exact ⟨e, (readN_suffix h1).1.symm⟩

theorem ZeroPanic.readData : ZeroPanic readData :=
  .bind (.bind (.readN 4) fun _ => .pure _) fun _ => .readN _

theorem ZeroPanic.decDone : ZeroPanic decDone := by
  constructor
  · intro s h; unfold Otrr.decDone at h; split at h <;> cases h
  · intro s a s' h
    unfold Otrr.decDone at h
    split at h
    · simp only [Res.ok.injEq, Prod.mk.injEq] at h
      rw [← h.2]; exact List.nil_suffix
    · cases h

theorem verify_ne_panic (c : Curve) (P : Point) : Point.verify c P ≠ .panic := by
  unfold Point.verify; split <;> simp

theorem readMsg1_zero (c : Curve) : ZeroPanic (readMsg1 c) :=
  .bind .readData fun _ => .bind (.readPoint c) fun _ => .bind (.lift (verify_ne_panic _ _)) fun _ =>
  .bind (.readScalar c) fun _ => .bind (.readScalar c) fun _ => .bind (.readPoint c) fun _ =>
  .bind (.lift (verify_ne_panic _ _)) fun _ => .bind (.readScalar c) fun _ => .bind (.readScalar c) fun _ =>
  .bind .decDone fun _ => .pure _
theorem readMsg2_zero (c : Curve) : ZeroPanic (readMsg2 c) :=
  .bind (.readPoint c) fun _ => .bind (.readScalar c) fun _ => .bind (.readScalar c) fun _ =>
  .bind (.readPoint c) fun _ => .bind (.readScalar c) fun _ => .bind (.readScalar c) fun _ =>
  .bind (.readPoint c) fun _ => .bind (.readPoint c) fun _ => .bind (.readScalar c) fun _ =>
  .bind (.readScalar c) fun _ => .bind (.readScalar c) fun _ => .bind .decDone fun _ => .pure _
theorem readMsg3_zero (c : Curve) : ZeroPanic (readMsg3 c) :=
  .bind (.readPoint c) fun _ => .bind (.readPoint c) fun _ => .bind (.readScalar c) fun _ =>
  .bind (.readScalar c) fun _ => .bind (.readScalar c) fun _ => .bind (.readPoint c) fun _ =>
  .bind (.readScalar c) fun _ => .bind (.readScalar c) fun _ => .bind .decDone fun _ => .pure _
theorem readMsg4_zero (c : Curve) : ZeroPanic (readMsg4 c) :=
  .bind (.readPoint c) fun _ => .bind (.readScalar c) fun _ => .bind (.readScalar c) fun _ =>
  .bind .decDone fun _ => .pure _

theorem ZeroPanic.run {d : Dec α} (hd : ZeroPanic d) {s : Bytes} (h : runDec d s = .panic) : List.replicate 57 0 <:+: s := by
  unfold runDec at h
  split at h
  · cases h
  · cases h
  · rename_i h'; exact hd.1 s h'

/-! Fields that were read. -/

theorem point_field {c : Curve} (h : GoodField c) {s s' : Bytes} {P : Point} (hr : readPoint c s = .ok (P, s')) {v : List Field4}
    (hv : Fields c v s') : Fields c (.point P :: v) s ∧ OnCurve c P := by
  obtain ⟨e, s1, h1, h2⟩ := Dec.bind_eq_ok.mp hr
  obtain ⟨h3, h4⟩ := readN_suffix h1
  have h5 : Point.decode c e = .ok P ∧ s1 = s' := by
    unfold Dec.lift at h2
    split at h2
    · simp only [Res.ok.injEq, Prod.mk.injEq] at h2; simp_all
    · cases h2
    · cases h2
  obtain ⟨h5, rfl⟩ := h5
  obtain ⟨h6, h7⟩ := Point.decode_spec h h4 h5
  rw [h3]
  exact ⟨.point h4 h6 h7 hv, h6⟩

theorem scalar_field {c : Curve} {s s' : Bytes} {n : Nat} (hr : readScalar c s = .ok (n, s')) {v : List Field4}
    (hv : Fields c v s') : Fields c (.scalar n :: v) s := by
  obtain ⟨e, s1, h1, h2⟩ := Dec.bind_eq_ok.mp hr
  obtain ⟨h3, h4⟩ := readN_suffix h1
  unfold decodeScalar at h2
  split at h2
  · simp only [Dec.lift, Res.ok.injEq, Prod.mk.injEq] at h2
    obtain ⟨rfl, rfl⟩ := h2
    rw [h3]
    exact .scalar h4 hv
  · cases h2

theorem decDone_ok {s : Bytes} {r : Unit × Bytes} (h : decDone s = .ok r) : s = [] := by
  unfold decDone at h
  split at h
  · assumption
  · cases h

theorem lift_ok {r : Res α} {s s' : Bytes} {a : α} (h : Dec.lift r s = .ok (a, s')) : r = .ok a ∧ s = s' := by
  unfold Dec.lift at h
  split at h
  · simp only [Res.ok.injEq, Prod.mk.injEq] at h; simp_all
  · cases h
  · cases h

theorem runDec_ok' {d : Dec α} {s : Bytes} {a : α} (h : runDec d s = .ok a) : ∃ s', d s = .ok (a, s') := by
  unfold runDec at h
  split at h
  · rename_i h'; cases h; exact ⟨_, h'⟩
  · cases h
  · cases h

theorem readMsg2_fields {c : Curve} (hc : GoodField c) {s : Bytes} {m : Msg2} (h : runDec (readMsg2 c) s = .ok m) :
    Fields c (fields2 m.G2b m.c2 m.d2 m.G3b m.c3 m.d3 m.Pb m.Qb m.cp m.d5 m.d6) s ∧
    OnCurve c m.G2b ∧ OnCurve c m.G3b ∧ OnCurve c m.Pb ∧ OnCurve c m.Qb := by
  obtain ⟨s', h⟩ := runDec_ok' h
  simp only [readMsg2, Dec.bind_eq_ok] at h
  obtain ⟨a1, s1, h1, a2, s2, h2, a3, s3, h3, a4, s4, h4, a5, s5, h5, a6, s6, h6, a7, s7, h7, a8, s8, h8, a9, s9, h9,
    a10, s10, h10, a11, s11, h11, _, s12, h12, h⟩ := h
  simp only [Dec.pure_run, Res.ok.injEq, Prod.mk.injEq] at h
  obtain ⟨rfl, -⟩ := h
  have := decDone_ok h12
  subst this
  have g9 := scalar_field h9 (scalar_field h10 (scalar_field h11 .nil))
  have g8 := point_field hc h8 g9
  have g7 := point_field hc h7 g8.1
  have g4 := point_field hc h4 (scalar_field h5 (scalar_field h6 g7.1))
  have g1 := point_field hc h1 (scalar_field h2 (scalar_field h3 g4.1))
  exact ⟨g1.1, g1.2, g4.2, g7.2, g8.2⟩

theorem readMsg3_fields {c : Curve} (hc : GoodField c) {s : Bytes} {m : Msg3} (h : runDec (readMsg3 c) s = .ok m) :
    Fields c (fields3 m.Pa m.Qa m.cp m.d5 m.d6 m.Ra m.cr m.d7) s ∧
    OnCurve c m.Pa ∧ OnCurve c m.Qa ∧ OnCurve c m.Ra := by
  obtain ⟨s', h⟩ := runDec_ok' h
  simp only [readMsg3, Dec.bind_eq_ok] at h
  obtain ⟨a1, s1, h1, a2, s2, h2, a3, s3, h3, a4, s4, h4, a5, s5, h5, a6, s6, h6, a7, s7, h7, a8, s8, h8, _, s12, h12, h⟩ := h
  simp only [Dec.pure_run, Res.ok.injEq, Prod.mk.injEq] at h
  obtain ⟨rfl, -⟩ := h
  have := decDone_ok h12
  subst this
  have g6 := point_field hc h6 (scalar_field h7 (scalar_field h8 .nil))
  have g2 := point_field hc h2 (scalar_field h3 (scalar_field h4 (scalar_field h5 g6.1)))
  have g1 := point_field hc h1 g2.1
  exact ⟨g1.1, g1.2, g2.2, g6.2⟩

theorem readMsg4_fields {c : Curve} (hc : GoodField c) {s : Bytes} {m : Msg4} (h : runDec (readMsg4 c) s = .ok m) :
    Fields c (fields4 m.Rb m.cr m.d7) s ∧ OnCurve c m.Rb := by
  obtain ⟨s', h⟩ := runDec_ok' h
  simp only [readMsg4, Dec.bind_eq_ok] at h
  obtain ⟨a1, s1, h1, a2, s2, h2, a3, s3, h3, _, s12, h12, h⟩ := h
  simp only [Dec.pure_run, Res.ok.injEq, Prod.mk.injEq] at h
  obtain ⟨rfl, -⟩ := h
  have := decDone_ok h12
  subst this
  exact point_field hc h1 (scalar_field h2 (scalar_field h3 .nil))

theorem readData_ok {s s' d : Bytes} (h : readData s = .ok (d, s')) : s = wData d ++ s' ∧ d.length < 2 ^ 32 := by
  obtain ⟨len, s1, h1, h2⟩ := Dec.bind_eq_ok.mp h
  obtain ⟨b, s2, h3, h4⟩ := Dec.bind_eq_ok.mp h1
  obtain ⟨e1, l1⟩ := readN_suffix h3
  obtain ⟨e2, l2⟩ := readN_suffix h2
  simp only [Dec.pure_run, Res.ok.injEq, Prod.mk.injEq] at h4
  obtain ⟨rfl, rfl⟩ := h4
  have hb := beNat_lt b
  rw [l1] at hb
  have hlen := (UInt32.ofNat (beNat b)).toNat_lt
  have hto : (UInt32.ofNat (beNat b)).toNat = beNat b := by
    simp only [UInt32.toNat_ofNat']
    omega
  rw [hto] at l2
  refine ⟨?_, by omega⟩
  rw [e1, e2, wData, l2]
  have : wU32 (UInt32.ofNat (beNat b)) = b := by
    rw [wU32, hto]
    have := beBytes_beNat b
    rwa [l1] at this
  rw [this, List.append_assoc]

theorem readMsg1_fields {c : Curve} (hc : GoodField c) {s : Bytes} {m : Msg1} (h : runDec (readMsg1 c) s = .ok m) :
    ∃ b, s = wData m.question ++ b ∧ m.question.length < 2 ^ 32 ∧ Fields c (fields1 m.G2a m.c2 m.d2 m.G3a m.c3 m.d3) b ∧
    OnCurve c m.G2a ∧ OnCurve c m.G3a ∧ Point.verify c m.G2a = .ok () ∧ Point.verify c m.G3a = .ok () := by
  obtain ⟨s', h⟩ := runDec_ok' h
  simp only [readMsg1, Dec.bind_eq_ok] at h
  obtain ⟨q, s0, h0, a1, s1, h1, _, s1', h1', a2, s2, h2, a3, s3, h3, a4, s4, h4, _, s4', h4', a5, s5, h5, a6, s6, h6, _, s12, h12, h⟩ := h
  simp only [Dec.pure_run, Res.ok.injEq, Prod.mk.injEq] at h
  obtain ⟨rfl, -⟩ := h
  have := decDone_ok h12
  subst this
  obtain ⟨v1, rfl⟩ := lift_ok h1'
  obtain ⟨v4, rfl⟩ := lift_ok h4'
  obtain ⟨e0, hl⟩ := readData_ok h0
  have g4 := point_field hc h4 (scalar_field h5 (scalar_field h6 .nil))
  have g1 := point_field hc h1 (scalar_field h2 (scalar_field h3 g4.1))
  exact ⟨s0, e0, hl, g1.1, g1.2, g4.2, v1, v4⟩

end SMP4
end Otrr
