import Verif.Model.Messages
/-! Base64: decoding undoes encoding. -/

namespace Otrr

/-- The symbol values of an encoded string. -/
def b64Sym : Bytes → List Nat
  | a :: b :: c :: r =>
    (a.toNat / 4) :: (a.toNat % 4 * 16 + b.toNat / 16) :: (b.toNat % 16 * 4 + c.toNat / 64) :: (c.toNat % 64) ::
      b64Sym r
  | [a, b] => [a.toNat / 4, a.toNat % 4 * 16 + b.toNat / 16, b.toNat % 16 * 4]
  | [a] => [a.toNat / 4, a.toNat % 4 * 16]
  | [] => []

/-- The padding of an encoded string. -/
def b64Pad (d : Bytes) : Bytes :=
  if d.length % 3 = 0 then [] else if d.length % 3 = 1 then [0x3d, 0x3d] else [0x3d]

theorem b64Encode_eq (d : Bytes) : b64Encode d = (b64Sym d).map b64Char ++ b64Pad d := by
  fun_induction b64Encode d with
  | case1 a b c r ih =>
    simp only [b64Sym, List.map_cons, List.cons_append, ih]
    have : b64Pad (a :: b :: c :: r) = b64Pad r := by
      have h : (a :: b :: c :: r).length % 3 = r.length % 3 := by
        simp only [List.length_cons]
        omega
      simp only [b64Pad, h]
    rw [this]
  | case2 a b => rfl
  | case3 a => rfl
  | case4 => rfl

theorem b64Sym_lt (d : Bytes) : ∀ v ∈ b64Sym d, v < 64 := by
  fun_induction b64Sym d with
  | case1 a b c r ih =>
    have := a.toNat_lt
    have := b.toNat_lt
    have := c.toNat_lt
    intro v hv
    simp only [List.mem_cons] at hv
    rcases hv with rfl | rfl | rfl | rfl | hv
    · omega
    · omega
    · omega
    · omega
    · exact ih v hv
  | case2 a b =>
    have := a.toNat_lt
    have := b.toNat_lt
    intro v hv
    simp only [List.mem_cons, List.not_mem_nil, or_false] at hv
    omega
  | case3 a =>
    have := a.toNat_lt
    intro v hv
    simp only [List.mem_cons, List.not_mem_nil, or_false] at hv
    omega
  | case4 => simp

theorem b64Sym_length (d : Bytes) :
    (d.length % 3 = 0 → (b64Sym d).length % 4 = 0) ∧ (d.length % 3 = 1 → (b64Sym d).length % 4 = 2) ∧
    (d.length % 3 = 2 → (b64Sym d).length % 4 = 3) := by
  fun_induction b64Sym d with
  | case1 a b c r ih =>
    simp only [List.length_cons]
    omega
  | case2 a b => simp
  | case3 a => simp
  | case4 => simp

theorem b64Char_table : ∀ v : Fin 64, b64Val (b64Char v.val) = some v.val ∧ (b64Char v.val != 0x3d) = true := by
  decide +kernel

theorem b64Val_char {v : Nat} (h : v < 64) : b64Val (b64Char v) = some v := (b64Char_table ⟨v, h⟩).1
theorem b64Char_ne {v : Nat} (h : v < 64) : (b64Char v != 0x3d) = true := (b64Char_table ⟨v, h⟩).2

theorem b64Vals_map {vs : List Nat} (h : ∀ v ∈ vs, v < 64) : b64Vals (vs.map b64Char) = some vs := by
  induction vs with
  | nil => rfl
  | cons v vs ih =>
    simp [b64Vals, b64Val_char (h v (by simp)), ih (fun x hx => h x (by simp [hx]))]

theorem b64Groups_sym (d : Bytes) : b64Groups (b64Sym d) = some d := by
  fun_induction b64Sym d with
  | case1 a b c r ih =>
    have ha := a.toNat_lt
    have hb := b.toNat_lt
    have hc := c.toNat_lt
    have e1 : a.toNat / 4 * 4 + (a.toNat % 4 * 16 + b.toNat / 16) / 16 = a.toNat := by omega
    have e2 : (a.toNat % 4 * 16 + b.toNat / 16) % 16 * 16 + (b.toNat % 16 * 4 + c.toNat / 64) / 4 = b.toNat := by
      omega
    have e3 : (b.toNat % 16 * 4 + c.toNat / 64) % 4 * 64 + c.toNat % 64 = c.toNat := by omega
    simp only [b64Groups, ih, Option.map_some, e1, e2, e3, UInt8.ofNat_toNat]
  | case2 a b =>
    have ha := a.toNat_lt
    have hb := b.toNat_lt
    have e1 : a.toNat / 4 * 4 + (a.toNat % 4 * 16 + b.toNat / 16) / 16 = a.toNat := by omega
    have e2 : (a.toNat % 4 * 16 + b.toNat / 16) % 16 * 16 + (b.toNat % 16 * 4) / 4 = b.toNat := by
      omega
    have e3 : b.toNat % 16 * 4 % 4 = 0 := by omega
    simp only [b64Groups, e1, e2, e3, UInt8.ofNat_toNat, if_true]
  | case3 a =>
    have ha := a.toNat_lt
    have e1 : a.toNat / 4 * 4 + (a.toNat % 4 * 16) / 16 = a.toNat := by omega
    have e3 : a.toNat % 4 * 16 % 16 = 0 := by omega
    simp only [b64Groups, e1, e3, UInt8.ofNat_toNat, if_true]
  | case4 => rfl

theorem b64_roundtrip (d : Bytes) : b64Decode (b64Encode d) = some d := by
  have hall : ∀ c ∈ (b64Sym d).map b64Char, (c != 0x3d) = true := by
    intro c hc
    obtain ⟨v, hv, rfl⟩ := List.mem_map.mp hc
    exact b64Char_ne (b64Sym_lt d v hv)
  have hpad : (b64Pad d).takeWhile (· != 0x3d) = [] ∧ (b64Pad d).dropWhile (· != 0x3d) = b64Pad d ∧
      (b64Pad d).all (· == 0x3d) = true := by
    unfold b64Pad
    split
    · decide
    · split <;> decide
  have h1 : (b64Encode d).takeWhile (· != 0x3d) = (b64Sym d).map b64Char := by
    rw [b64Encode_eq, List.takeWhile_append_of_pos hall, hpad.1, List.append_nil]
  have h2 : (b64Encode d).dropWhile (· != 0x3d) = b64Pad d := by
    rw [b64Encode_eq, List.dropWhile_append_of_pos hall, hpad.2.1]
  unfold b64Decode
  simp only [h1, h2, hpad.2.2, Bool.true_and, List.length_map]
  rw [if_pos, b64Vals_map (b64Sym_lt d)]
  · exact b64Groups_sym d
  · obtain ⟨l0, l1, l2⟩ := b64Sym_length d
    unfold b64Pad
    have : d.length % 3 = 0 ∨ d.length % 3 = 1 ∨ d.length % 3 = 2 := by omega
    rcases this with h | h | h
    · simp [h]
    · simp [h, l1 h]
    · simp [h, l2 h]

end Otrr
