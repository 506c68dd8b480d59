import Verif.Spec.Curve
import Verif.Lemmas.Encoding
import Mathlib.FieldTheory.Finite.Basic
import Mathlib.Tactic.LinearCombination
import Mathlib.Tactic.Ring
import Mathlib.Tactic.FieldSimp
/-! Encoding and decoding of curve points. -/

namespace Otrr

open Spec

theorem modFloor_cast {m : Nat} (h : 0 < m) (a : Int) : ((modFloor a m : Nat) : ZMod m) = (a : ZMod m) := by
  unfold modFloor
  have h1 : (0 : Int) ≤ a % (m : Int) := Int.emod_nonneg _ (by omega)
  have h2 : (((a % (m : Int)).toNat : Nat) : Int) = a % (m : Int) := Int.toNat_of_nonneg h1
  have h3 : (((a % (m : Int)).toNat : Nat) : ZMod m) = ((a % (m : Int) : Int) : ZMod m) := by
    rw [← h2]; simp
  rw [h3, ZMod.intCast_mod]

theorem modFloor_lt {m : Nat} (h : 0 < m) (a : Int) : modFloor a m < m := by
  unfold modFloor
  have h1 : (0 : Int) ≤ a % (m : Int) := Int.emod_nonneg _ (by omega)
  have h2 : a % (m : Int) < m := Int.emod_lt_of_pos _ (by omega)
  omega

theorem modFloor_eq_iff {m : Nat} (h : 0 < m) (a b : Int) :
    modFloor a m = modFloor b m ↔ (a : ZMod m) = (b : ZMod m) := by
  constructor
  · intro e
    rw [← modFloor_cast h a, ← modFloor_cast h b, e]
  · intro e
    rw [← modFloor_cast h a, ← modFloor_cast h b] at e
    have := (ZMod.natCast_eq_natCast_iff' _ _ _).mp e
    rwa [Nat.mod_eq_of_lt (modFloor_lt h a), Nat.mod_eq_of_lt (modFloor_lt h b)] at this

theorem modpow_cast (b e m : Nat) : ((modpow b e m : Nat) : ZMod m) = (b : ZMod m) ^ e := by
  unfold modpow
  rw [ZMod.natCast_mod, Nat.cast_pow]

theorem Spec.GoodField.pos {c : Curve} (h : GoodField c) : 0 < c.p := h.prime.pos

theorem Spec.GoodField.nonsq {c : Curve} (h : GoodField c) (r : ZMod c.p) : r ^ 2 ≠ (c.d : ZMod c.p) := by
  have := Fact.mk h.prime
  intro e
  obtain ⟨k, hk⟩ := ZMod.intCast_surjective r
  apply h.nonsquare k
  rw [← hk] at e
  have : ((k ^ 2 - c.d : Int) : ZMod c.p) = 0 := by push_cast; rw [e]; ring
  exact (ZMod.intCast_zmod_eq_zero_iff_dvd _ _).mp this

/-- The curve equation in the field. -/
theorem onCurve_iff {c : Curve} {P : Point} :
    OnCurve c P ↔ P.x < c.p ∧ P.y < c.p ∧
      (P.x : ZMod c.p) ^ 2 + (P.y : ZMod c.p) ^ 2 = 1 + (c.d : ZMod c.p) * (P.x : ZMod c.p) ^ 2 * (P.y : ZMod c.p) ^ 2 := by
  constructor
  · rintro ⟨h1, h2, h3⟩
    refine ⟨h1, h2, ?_⟩
    have := (ZMod.intCast_zmod_eq_zero_iff_dvd _ _).mpr h3
    push_cast at this
    linear_combination this
  · rintro ⟨h1, h2, h3⟩
    refine ⟨h1, h2, (ZMod.intCast_zmod_eq_zero_iff_dvd _ _).mp ?_⟩
    push_cast
    linear_combination h3

theorem denom_ne_zero {c : Curve} (h : GoodField c) (y : ZMod c.p) : (c.d : ZMod c.p) * y ^ 2 - 1 ≠ 0 := by
  have := Fact.mk h.prime
  intro e
  have hy : y ≠ 0 := by
    rintro rfl
    simp at e
  apply h.nonsq y⁻¹
  field_simp
  linear_combination -e

theorem Nat.cast_inj_of_lt {p a b : Nat} (ha : a < p) (hb : b < p) (h : (a : ZMod p) = (b : ZMod p)) : a = b := by
  have := (ZMod.natCast_eq_natCast_iff' _ _ _).mp h
  rwa [Nat.mod_eq_of_lt ha, Nat.mod_eq_of_lt hb] at this

/-- The square root computed by `decode` is `x` or `-x`. -/
theorem root_sq {c : Curve} (h : GoodField c) {P : Point} (hP : OnCurve c P) :
    (Point.root c P.y : ZMod c.p) = P.x ∨ (Point.root c P.y : ZMod c.p) = -(P.x : ZMod c.p) := by
  have := Fact.mk h.prime
  obtain ⟨-, -, he⟩ := onCurve_iff.mp hP
  have hv := denom_ne_zero h (P.y : ZMod c.p)
  generalize hx : (P.x : ZMod c.p) = x at *
  generalize hy : (P.y : ZMod c.p) = y at *
  have hu : y ^ 2 - 1 = x ^ 2 * ((c.d : ZMod c.p) * y ^ 2 - 1) := by linear_combination he
  generalize hvd : (c.d : ZMod c.p) * y ^ 2 - 1 = v at *
  have hn : ((Point.num P.y : Int) : ZMod c.p) = x ^ 2 * v := by
    simp only [Point.num]; push_cast; rw [hy]; linear_combination hu
  have hd : ((Point.denom c P.y : Int) : ZMod c.p) = v := by
    simp only [Point.denom]; push_cast; rw [hy]; linear_combination hvd
  have hr : (Point.root c P.y : ZMod c.p) = x ^ 6 * v ^ 4 * (x ^ 10 * v ^ 8) ^ ((c.p - 3) / 4) := by
    simp only [Point.root]
    rw [modFloor_cast h.pos]
    push_cast
    rw [modpow_cast, modFloor_cast h.pos]
    push_cast
    rw [hn, hd]
    ring
  rw [hr]
  apply sq_eq_sq_iff_eq_or_eq_neg.mp
  by_cases hx0 : x = 0
  · simp [hx0]
  · have hw : x ^ 5 * v ^ 4 ≠ 0 := mul_ne_zero (pow_ne_zero _ hx0) (pow_ne_zero _ hv)
    have hf : (x ^ 5 * v ^ 4) ^ (c.p - 1) = 1 := ZMod.pow_card_sub_one_eq_one hw
    have hp := h.mod4
    have e1 : c.p - 1 = 4 * ((c.p - 3) / 4) + 2 := by omega
    rw [e1, pow_add] at hf
    have e2 : ((x ^ 10 * v ^ 8) ^ ((c.p - 3) / 4)) ^ 2 = (x ^ 5 * v ^ 4) ^ (4 * ((c.p - 3) / 4)) := by
      rw [← pow_mul, show x ^ 10 * v ^ 8 = (x ^ 5 * v ^ 4) ^ 2 by ring, ← pow_mul]
      congr 1; omega
    rw [mul_pow, e2]
    have : (x ^ 6 * v ^ 4) ^ 2 = x ^ 2 * (x ^ 5 * v ^ 4) ^ 2 := by ring
    rw [this]
    linear_combination x ^ 2 * hf

theorem root_lt {c : Curve} (h : 0 < c.p) (y : Nat) : Point.root c y < c.p := modFloor_lt h _

/-- What the check in `decode` says about the computed root. -/
theorem decode_check {c : Curve} (h : 0 < c.p) (y : Nat) (x : Nat) :
    modFloor (Point.num y) c.p = modFloor ((x : Int) * x * Point.denom c y) c.p ↔
      (y : ZMod c.p) ^ 2 - 1 = (x : ZMod c.p) ^ 2 * ((c.d : ZMod c.p) * (y : ZMod c.p) ^ 2 - 1) := by
  rw [modFloor_eq_iff h]
  simp only [Point.num, Point.denom]
  push_cast
  constructor
  · intro e; linear_combination e
  · intro e; linear_combination e

theorem Point.encode_length (P : Point) : P.encode.length = 57 := by simp [Point.encode]

theorem getD_append_56 {a : Bytes} (h : a.length = 56) (b : UInt8) : (a ++ [b]).getD 56 0 = b := by
  simp [List.getD, h]

theorem Point.decode_encode {c : Curve} (h : GoodField c) {P : Point} (hP : OnCurve c P) :
    Point.decode c P.encode = .ok P := by
  have := Fact.mk h.prime
  obtain ⟨hx, hy, he⟩ := onCurve_iff.mp hP
  have hp := h.mod4
  have hl : (leBytes 56 P.y).length = 56 := by simp
  have hyv : leNat (P.encode.take 56) = P.y := by
    unfold Point.encode
    rw [List.take_append_of_le_length (by rw [hl])]
    rw [List.take_of_length_le (by rw [hl])]
    exact leNat_leBytes_of_lt (Nat.lt_trans hy h.small)
  have hb : P.encode.getD 56 0 = if P.x % 2 = 1 then 0x80 else 0 := by
    unfold Point.encode
    exact getD_append_56 hl _
  unfold Point.decode
  simp only [hyv, hb]
  rw [if_neg (by omega)]
  have hr := root_sq h hP
  have hrl := root_lt h.pos (c := c) P.y
  generalize Point.root c P.y = r at *
  have hchk : modFloor (Point.num P.y) c.p = modFloor ((r : Int) * r * Point.denom c P.y) c.p := by
    rw [decode_check h.pos]
    rcases hr with e | e <;> rw [e] <;> linear_combination he
  rw [if_neg (by rw [hchk]; simp)]
  have hcase : r = P.x ∨ (P.x ≠ 0 ∧ r = c.p - P.x) := by
    rcases hr with e | e
    · exact Or.inl (Nat.cast_inj_of_lt hrl hx e)
    · by_cases hx0 : P.x = 0
      · left
        rw [hx0] at e ⊢
        apply Nat.cast_inj_of_lt hrl (by rw [hx0] at hx; exact hx)
        simpa using e
      · right
        refine ⟨hx0, Nat.cast_inj_of_lt hrl (by omega) ?_⟩
        rw [e, Nat.cast_sub (Nat.le_of_lt hx)]
        simp
  have hb0 : ((0x80 : UInt8) &&& 0x80) >>> 7 = 1 := by decide
  have hb1 : ((0 : UInt8) &&& 0x80) >>> 7 = 0 := by decide
  have h10 : (1 : UInt8) ≠ 0 := by decide
  by_cases hodd : P.x % 2 = 1
  · simp only [hodd, if_true, hb0]
    rcases hcase with e | ⟨hx0, e⟩
    · subst e
      rw [if_neg (by omega), if_pos (by simp [h10, hodd])]
    · rw [if_neg (by omega), if_neg (by simp only [h10, iff_false]; omega)]
      have : c.p - r = P.x := by omega
      rw [this]
  · simp only [hodd, if_false, hb1]
    rcases hcase with e | ⟨hx0, e⟩
    · subst e
      rw [if_neg (by simp), if_pos (by simp; omega)]
    · rw [if_neg (by simp), if_neg (by simp; omega)]
      have : c.p - r = P.x := by omega
      rw [this]

theorem bit7_cases (b : UInt8) : (b &&& 0x80 = 0 ∧ (b &&& 0x80) >>> 7 = 0) ∨
    (b &&& 0x80 = 0x80 ∧ (b &&& 0x80) >>> 7 = 1) := by
  revert b
  have : ∀ n : Fin 256, ((UInt8.ofNat n.val) &&& 0x80 = 0 ∧ ((UInt8.ofNat n.val) &&& 0x80) >>> 7 = 0) ∨
    ((UInt8.ofNat n.val) &&& 0x80 = 0x80 ∧ ((UInt8.ofNat n.val) &&& 0x80) >>> 7 = 1) := by decide +kernel
  intro b
  have h := this ⟨b.toNat, b.toNat_lt⟩
  simpa using h

/-- A decoded point is on the curve, and its encoding agrees with the input except for the seven low bits
of the last byte. -/
theorem Point.decode_spec {c : Curve} (h : GoodField c) {e : Bytes} (hl : e.length = 57) {P : Point}
    (hd : Point.decode c e = .ok P) :
    OnCurve c P ∧ P.encode = e.take 56 ++ [e.getD 56 0 &&& 0x80] := by
  have := Fact.mk h.prime
  have hp := h.mod4
  unfold Point.decode at hd
  simp only at hd
  have hyl : leBytes 56 (leNat (e.take 56)) = e.take 56 := by
    have := leBytes_leNat (e.take 56)
    rwa [List.length_take, hl] at this
  generalize hy : leNat (e.take 56) = y at *
  generalize hbb : e.getD 56 0 = b at *
  split at hd
  · cases hd
  · rename_i hylt
    have hrl := root_lt h.pos (c := c) y
    generalize Point.root c y = r at *
    split at hd
    · cases hd
    · rename_i hchk
      rw [not_not, decode_check h.pos] at hchk
      have hb := bit7_cases b
      split at hd
      · cases hd
      · rename_i hz
        split at hd
        · rename_i hpar
          simp only [Res.ok.injEq] at hd
          subst hd
          refine ⟨onCurve_iff.mpr ⟨hrl, by simp only; omega, by linear_combination hchk⟩, ?_⟩
          simp only [Point.encode, hyl]
          rcases hb with ⟨h1, h2⟩ | ⟨h1, h2⟩
          · rw [h1]; rw [h2] at hpar; simp at hpar; rw [if_neg (by omega)]
          · rw [h1]; rw [h2] at hpar; simp at hpar; rw [if_pos (by omega)]
        · rename_i hpar
          simp only [Res.ok.injEq] at hd
          subst hd
          have hr0 : r ≠ 0 := by
            intro h0
            rcases hb with ⟨h1, h2⟩ | ⟨h1, h2⟩
            · rw [h2] at hpar; simp [h0] at hpar
            · rw [h2] at hz; simp [h0] at hz
          refine ⟨onCurve_iff.mpr ⟨by simp only; omega, by simp only; omega, ?_⟩, ?_⟩
          · simp only
            rw [Nat.cast_sub (Nat.le_of_lt hrl)]
            simp
            linear_combination hchk
          · simp only [Point.encode, hyl]
            rcases hb with ⟨h1, h2⟩ | ⟨h1, h2⟩
            · rw [h1]; rw [h2] at hpar; simp at hpar; rw [if_neg (by omega)]
            · rw [h1]; rw [h2] at hpar; simp at hpar; rw [if_pos (by omega)]

theorem Point.decode_ne_panic (c : Curve) (e : Bytes) : Point.decode c e ≠ .panic := by
  unfold Point.decode
  simp only
  repeat' split
  all_goals simp

theorem readPoint_w {c : Curve} (h : GoodField c) {P : Point} (hP : OnCurve c P) (rest : Bytes) :
    readPoint c (wPoint P ++ rest) = .ok (P, rest) := by
  unfold readPoint wPoint
  rw [Dec.bind_ok (readN_append P.encode_length rest), Point.decode_encode h hP]
  rfl

theorem readPoint_safe (c : Curve) : (readPoint c).Safe :=
  (readN_safe 57).bind fun _ => .lift (Point.decode_ne_panic _ _)

theorem anyNonzero_leBytes {n v : Nat} (h : v < 256 ^ n) (h0 : v ≠ 0) : anyNonzero (leBytes n v) = true := by
  by_contra hc
  have hz : ∀ l : Bytes, allZero l = true → leNat l = 0 := by
    intro l
    induction l with
    | nil => simp [leNat]
    | cons b l ih =>
      intro hb
      simp [allZero] at hb
      simp only [leNat, hb.1]
      rw [ih (by simpa [allZero] using hb.2)]
      rfl
  have : leNat (leBytes n v) = 0 := hz _ (by simpa [anyNonzero] using hc)
  rw [leNat_leBytes_of_lt h] at this
  exact h0 this

/-- A scalar that `write_ed448_scalar` / `read_ed448_scalar` can carry: between 1 and `q - 1`. -/
theorem readScalar_w {c : Curve} (hq : c.q < 256 ^ 57) {s : Nat} (h0 : s ≠ 0) (h : s < c.q) (rest : Bytes) :
    readScalar c (wScalar s ++ rest) = .ok (s, rest) := by
  unfold readScalar wScalar
  rw [Dec.bind_ok (readN_append (by simp) rest), decodeScalar,
    if_pos (anyNonzero_leBytes (Nat.lt_trans h hq) h0), leNat_leBytes_of_lt (Nat.lt_trans h hq),
    Nat.mod_eq_of_lt h]
  rfl

end Otrr
