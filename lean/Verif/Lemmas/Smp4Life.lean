import Verif.Lemmas.Smp4Run
/-!
Histories of an SMP context in OTRv4.
-/

namespace Otrr
open Spec Edwards

namespace SMP4

variable {E : Env} {c : SMP4Context}

/-- How the state of a context follows from its history. -/
def Tied (E : Env) (h : List SmpEv) (c : SMP4Context) : Prop :=
  match c.state with
  | .expect1 => c.status ≠ .inProgress
  | .expect2 _ a2 a3 => c.status = .inProgress ∧ ∃ h' m1, h = h' ++ [.started m1] ∧
      Sent4_1 E.curve (Point.mul E.curve E.curve.G a2) (Point.mul E.curve E.curve.G a3) m1
  | .expect3 G3a G2 G3 b3 Pb Qb => c.status = .inProgress ∧ ∃ h' m1 m2 q G2a b2,
      h = h' ++ [.received m1 (some m2) .inProgress] ∧ Checked4_1 E q G2a G3a m1 ∧
      G2 = Point.mul E.curve G2a b2 ∧ G3 = Point.mul E.curve G3a b3 ∧ GoodKey E.curve G2 ∧ GoodKey E.curve G3 ∧
      GoodKey E.curve Pb ∧ GoodKey E.curve Qb ∧
      Sent4_2 E.curve (Point.mul E.curve E.curve.G b2) (Point.mul E.curve E.curve.G b3) Pb Qb m2
  | .expect4 G3b deltaP deltaQ a3 => c.status = .inProgress ∧ ∃ h' m1 m2 m3 a2 G2b Pb Qb Pa Qa,
      h = h' ++ [.started m1, .received m2 (some m3) .inProgress] ∧
      Sent4_1 E.curve (Point.mul E.curve E.curve.G a2) (Point.mul E.curve E.curve.G a3) m1 ∧
      Checked4_2 E a2 a3 G2b G3b Pb Qb m2 ∧ Sent4_3 E.curve Pa Qa m3 ∧
      deltaQ = sub E.curve Qa Qb ∧ deltaP = sub E.curve Pa Pb

theorem Tied.idle {h : List SmpEv} (ht : Tied E h c) : c.state = .expect1 ↔ c.status ≠ .inProgress := by
  constructor
  · intro hs; rw [Tied, hs] at ht; exact ht
  · intro hs
    unfold Tied at ht
    split at ht
    · assumption
    · exact absurd ht.1 hs
    · exact absurd ht.1 hs
    · exact absurd ht.1 hs

theorem life_tied (hc : GoodCurve E.curve) {h : List SmpEv} {c : SMP4Context} (hl : SmpLife4 E h c) : Tied E h c := by
  have := Fact.mk hc.field.prime
  have := hc.field.good
  have hG := inSub_G hc
  induction hl with
  | new us them ssid => simp [Tied, SMP4.new]
  | @started h c c' secret q rnd t hl hs ih =>
    obtain ⟨_, h1, h2⟩ := start_ok hs
    subst h1 h2
    exact ⟨rfl, h, _, rfl, (hG.mul _).1, (hG.mul _).1, q, _, _, _, _, rfl⟩
  | @received h c c' host t rnd r hl hh ih =>
    have hstep := handle_inv hc hh
    cases hstep with
    | abort => simp [Tied]
    | rejected => simp [Tied]
    | @one q answer G2a G3a ht hst hck hs hg =>
      obtain ⟨g1, g2, g3, g4⟩ := hg
      exact ⟨rfl, h, t, _, q, G2a, (draw2 E rnd).b2, rfl, hck, rfl, rfl, g1, g2, g3, g4, (hG.mul _).1, (hG.mul _).1, g3.on, g4.on, _, _, _, _, _, _, _, rfl⟩
    | @two x a2 a3 G2b G3b Pb Qb ht hst hck =>
      rw [Tied, hst] at ih
      obtain ⟨hin, h', m1, rfl, hs1⟩ := ih
      have hck' := hck
      obtain ⟨_, _, _, _, _, _, _, _, k1, k2, _, _, k3, k4, _⟩ := hck'
      refine ⟨rfl, h', m1, t, (after2 E x a2 a3 G2b G3b Pb Qb rnd c).1, a2, G2b, Pb, Qb, _, _, ?_, hs1, hck,
        ⟨(k4.inSub.mul _).1, (hG.comb2 k3.inSub _ _).1, _, _, _, _, _, _, rfl⟩, rfl, rfl⟩
      simp only [after2, List.append_assoc, List.cons_append, List.nil_append]
    | three => simp only [Tied, final]; split <;> simp
    | four => simp [Tied]
  | @aborted h c c' t hl ha ih =>
    cases ha
    simp [Tied]

/-- The comparison as an equation. -/
theorem compare_sub (hc : GoodCurve E.curve) {R P B : Point} {n : Nat} (hR : OnCurve E.curve R) (hP : OnCurve E.curve P)
    (hB : OnCurve E.curve B) (h : comparePoints (Point.mul E.curve R n) (sub E.curve P B) = .ok ()) :
    Point.add E.curve (Point.mul E.curve R n) B = P := by
  have := Fact.mk hc.field.prime
  have := hc.field.good
  obtain ⟨r, hr⟩ := OnCurve.rep hR
  obtain ⟨p, hp⟩ := OnCurve.rep hP
  obtain ⟨b, hb⟩ := OnCurve.rep hB
  have h1 := encode_sub hc.field hp hb (hr.mul n) (comparePoints_ok.mp h).1
  refine (((hr.mul n).add hb).eq_iff hp).mpr ?_
  rw [h1, sub_add_cancel]

section
variable {c : Curve} [hf : Fact (Nat.Prime c.p)] [hg : Good ((c.d : Int) : ZMod c.p)]

theorem mulLoop_coord {n s : Nat} {R T : Point} {A B : Pt ((c.d : Int) : ZMod c.p)} (hs : s < 2 ^ n)
    (hR : Coord R A) (hT : Coord T B) : Coord (Point.mulLoop c n s R T) (A + s • B) := by
  induction n generalizing s R T A B with
  | zero =>
    have : s = 0 := by simpa using hs
    subst this
    simpa [Point.mulLoop] using hR
  | succ n ih =>
    rw [Point.mulLoop]
    have hs2 : s / 2 < 2 ^ n := by rw [Nat.pow_succ] at hs; omega
    have e : s • B = (s % 2) • B + (s / 2) • (B + B) := by
      conv_lhs => rw [← Nat.mod_add_div s 2]
      rw [add_smul, mul_comm, mul_smul, two_smul]
    rw [e, ← add_assoc]
    by_cases h : s % 2 = 1
    · rw [if_pos h, h, one_smul]
      exact ih hs2 (hR.add hT) (hT.add hT)
    · rw [if_neg h]
      have h0 : s % 2 = 0 := by omega
      rw [h0, zero_smul, add_zero]
      exact ih hs2 hR (hT.add hT)

theorem mul_coord {P : Point} {A : Pt ((c.d : Int) : ZMod c.p)} (hP : Coord P A) (s : Nat) :
    Coord (Point.mul c P s) (s • A) := by
  have := mulLoop_coord (lt_two_pow_bits s) rep_identity.2.2 hP
  rwa [zero_add] at this

omit hg in
theorem coord_unique {P : Point} {A B : Pt ((c.d : Int) : ZMod c.p)} (h : Coord P A) (h' : Coord P B) : A = B := by
  ext
  · rw [← h.1, ← h'.1]
  · rw [← h.2, ← h'.2]

end

end SMP4

end Otrr
