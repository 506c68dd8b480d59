import Verif.Basic
/-! Lemmas about numbers as byte strings. -/

namespace Otrr

@[simp] theorem leBytes_length (n v : Nat) : (leBytes n v).length = n := by
  induction n generalizing v with
  | zero => rfl
  | succ n ih => simp [leBytes, ih]

@[simp] theorem beBytes_length (n v : Nat) : (beBytes n v).length = n := by
  simp [beBytes]

theorem beNat_append_singleton (bs : Bytes) (b : UInt8) :
    beNat (bs ++ [b]) = beNat bs * 256 + b.toNat := by
  simp [beNat]

theorem beNat_reverse (bs : Bytes) : beNat bs.reverse = leNat bs := by
  induction bs with
  | nil => rfl
  | cons b bs ih =>
    rw [List.reverse_cons, beNat_append_singleton, ih, leNat]
    omega

theorem beNat_eq_leNat_reverse (bs : Bytes) : beNat bs = leNat bs.reverse := by
  rw [← beNat_reverse, List.reverse_reverse]

theorem leNat_leBytes (n v : Nat) : leNat (leBytes n v) = v % 256 ^ n := by
  induction n generalizing v with
  | zero => simp [leBytes, leNat, Nat.mod_one]
  | succ n ih =>
    simp only [leBytes, leNat, ih, UInt8.toNat_ofNat']
    have e : (256 : Nat) ^ (n + 1) = 256 * 256 ^ n := by rw [Nat.pow_succ, Nat.mul_comm]
    rw [e, Nat.mod_mul]

theorem leNat_leBytes_of_lt {n v : Nat} (h : v < 256 ^ n) : leNat (leBytes n v) = v := by
  rw [leNat_leBytes, Nat.mod_eq_of_lt h]

theorem beNat_beBytes (n v : Nat) : beNat (beBytes n v) = v % 256 ^ n := by
  rw [beBytes, beNat_reverse, leNat_leBytes]

theorem beNat_beBytes_of_lt {n v : Nat} (h : v < 256 ^ n) : beNat (beBytes n v) = v := by
  rw [beNat_beBytes, Nat.mod_eq_of_lt h]

theorem leNat_lt (bs : Bytes) : leNat bs < 256 ^ bs.length := by
  induction bs with
  | nil => simp [leNat]
  | cons b bs ih =>
    have := b.toNat_lt
    simp only [leNat, List.length_cons, Nat.pow_succ]
    omega

theorem beNat_lt (bs : Bytes) : beNat bs < 256 ^ bs.length := by
  rw [beNat_eq_leNat_reverse]
  simpa using leNat_lt bs.reverse

theorem leBytes_leNat (bs : Bytes) : leBytes bs.length (leNat bs) = bs := by
  induction bs with
  | nil => rfl
  | cons b bs ih =>
    have hb := b.toNat_lt
    have h1 : (b.toNat + 256 * leNat bs) / 256 = leNat bs := by omega
    have h2 : UInt8.ofNat (b.toNat + 256 * leNat bs) = b := by
      apply UInt8.toNat_inj.mp
      rw [UInt8.toNat_ofNat']
      omega
    simp only [leNat, List.length_cons, leBytes, h1, h2, ih]

theorem beBytes_beNat (bs : Bytes) : beBytes bs.length (beNat bs) = bs := by
  have := leBytes_leNat bs.reverse
  rw [beBytes, beNat_eq_leNat_reverse]
  rw [List.length_reverse] at this
  rw [this, List.reverse_reverse]

theorem leNat_inj {a b : Bytes} (hl : a.length = b.length) (h : leNat a = leNat b) : a = b := by
  rw [← leBytes_leNat a, ← leBytes_leNat b, hl, h]

theorem beNat_inj {a b : Bytes} (hl : a.length = b.length) (h : beNat a = beNat b) : a = b := by
  rw [← beBytes_beNat a, ← beBytes_beNat b, hl, h]

theorem byteLen_zero : byteLen 0 = 0 := by rw [byteLen]; simp

theorem byteLen_pos {v : Nat} (h : v ≠ 0) : byteLen v = byteLen (v / 256) + 1 := by
  rw [byteLen]; simp [h]

theorem lt_pow_byteLen (v : Nat) : v < 256 ^ byteLen v := by
  induction v using Nat.strongRecOn with
  | ind v ih =>
    by_cases h : v = 0
    · subst h; simp [byteLen_zero]
    · have hlt : v / 256 < v := Nat.div_lt_self (Nat.pos_of_ne_zero h) (by decide)
      have := ih _ hlt
      rw [byteLen_pos h, Nat.pow_succ]
      omega

theorem pow_le_of_byteLen {v : Nat} (h : v ≠ 0) : 256 ^ (byteLen v - 1) ≤ v := by
  induction v using Nat.strongRecOn with
  | ind v ih =>
    rw [byteLen_pos h]
    by_cases h2 : v / 256 = 0
    · rw [h2, byteLen_zero]; simp; omega
    · have hlt : v / 256 < v := Nat.div_lt_self (Nat.pos_of_ne_zero h) (by decide)
      have := ih _ hlt h2
      rw [byteLen_pos h2] at this ⊢
      simp only [Nat.add_sub_cancel] at this ⊢
      rw [Nat.pow_succ]
      omega

theorem byteLen_le_of_lt_pow {v n : Nat} (h : v < 256 ^ n) : byteLen v ≤ n := by
  by_cases hv : v = 0
  · subst hv; simp [byteLen_zero]
  · have h1 := pow_le_of_byteLen hv
    have h2 : 256 ^ (byteLen v - 1) < 256 ^ n := Nat.lt_of_le_of_lt h1 h
    have := (Nat.pow_lt_pow_iff_right (by decide : 1 < 256)).mp h2
    omega

theorem byteLen_pos_iff {v : Nat} : 0 < byteLen v ↔ v ≠ 0 := by
  constructor
  · intro h hv; subst hv; simp [byteLen_zero] at h
  · intro h; rw [byteLen_pos h]; omega

theorem beNat_natToBE (v : Nat) : beNat (natToBE v) = v := by
  unfold natToBE
  split
  · next h => subst h; rfl
  · exact beNat_beBytes_of_lt (lt_pow_byteLen v)

theorem leNat_natToLE (v : Nat) : leNat (natToLE v) = v := by
  unfold natToLE
  split
  · next h => subst h; rfl
  · exact leNat_leBytes_of_lt (lt_pow_byteLen v)

theorem natToBE_inj {a b : Nat} (h : natToBE a = natToBE b) : a = b := by
  rw [← beNat_natToBE a, ← beNat_natToBE b, h]

theorem beNat_cons (b : UInt8) (bs : Bytes) :
    beNat (b :: bs) = b.toNat * 256 ^ bs.length + beNat bs := by
  have key : ∀ (l : Bytes), leNat (l ++ [b]) = b.toNat * 256 ^ l.length + leNat l := by
    intro l
    induction l with
    | nil => simp [leNat]
    | cons c l ih =>
      simp only [List.cons_append, leNat, ih, List.length_cons, Nat.pow_succ]
      have : 256 * (b.toNat * 256 ^ l.length) = b.toNat * (256 ^ l.length * 256) := by
        rw [Nat.mul_comm, Nat.mul_assoc]
      omega
  rw [beNat_eq_leNat_reverse, List.reverse_cons, key, beNat_eq_leNat_reverse, List.length_reverse]

/-- The minimal big-endian encoding has no leading zero byte. -/
theorem natToBE_head {v : Nat} (h : v ≠ 0) : ∃ b bs, natToBE v = b :: bs ∧ b ≠ 0 := by
  have hl : (natToBE v).length = byteLen v := by simp [natToBE, h]
  have hp := byteLen_pos_iff.mpr h
  match hE : natToBE v with
  | [] => rw [hE] at hl; simp at hl; omega
  | b :: bs =>
    refine ⟨b, bs, rfl, ?_⟩
    intro hb
    have h1 : beNat (b :: bs) = v := by rw [← hE, beNat_natToBE]
    rw [beNat_cons, hb] at h1
    simp at h1
    have h2 := beNat_lt bs
    have h3 := pow_le_of_byteLen h
    rw [hE] at hl
    simp at hl
    rw [← hl] at h3
    simp at h3
    omega

end Otrr
