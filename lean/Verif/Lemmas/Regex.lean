import Verif.Spec.Regex
/-!
# The matchers of the model are the regular expressions
-/

namespace Otrr.Spec.Regex
open Otrr

variable {β : Type} {nd : Nat → Bool}

/-! ## Matches followed by a continuation -/

theorem runs_empty (s : Bytes) (K : Match → List β) : (runs nd .empty s).flatMap K = K ([], [], s) := by
  simp [runs]

theorem runs_seq (a b : Re) (s : Bytes) (K : Match → List β) : (runs nd (.seq a b) s).flatMap K =
    (runs nd a s).flatMap fun x => (runs nd b x.2.2).flatMap fun y => K (x.1 ++ y.1, x.2.1 ++ y.2.1, y.2.2) := by
  simp only [runs, List.flatMap_assoc, andThen, List.flatMap_map]

theorem runs_group (n : Nat) (a : Re) (s : Bytes) (K : Match → List β) : (runs nd (.group n a) s).flatMap K =
    (runs nd a s).flatMap fun x => K (x.1 ++ [(n, x.2.1)], x.2.1, x.2.2) := by
  simp only [runs, List.flatMap_map]

/-- The literal byte `c`. -/
abbrev ch (c : UInt8) : Re := .byte [(c.toNat, c.toNat)]

theorem runs_ch (c : UInt8) (s : Bytes) (K : Match → List β) : (runs nd (ch c) s).flatMap K =
    match lit [c] s with
    | some r => K ([], [c], r)
    | .none => [] := by
  cases s with
  | nil => simp [runs, lit]
  | cons b r =>
    simp only [runs, List.any_cons, List.any_nil, Bool.or_false, lit, List.isPrefixOf_cons₂]
    by_cases h : c = b
    · subst h; simp
    · have : ¬ (c.toNat ≤ b.toNat ∧ b.toNat ≤ c.toNat) := by
        intro hh; exact h (UInt8.toNat_inj.mp (by omega))
      simp [h, this]

/-! ## Greedy repetition of tokens -/

/-- A token function of the matches `f`. -/
def IsTok (f : Bytes → List Match) (tk : Bytes → Option (Bytes × Bytes)) : Prop :=
  ∀ s, f s = match tk s with | some (t, r) => [([], t, r)] | .none => []

/-- As many tokens as possible, at most `n`: their number, their bytes, the rest. -/
def greedy (tk : Bytes → Option (Bytes × Bytes)) : Nat → Bytes → Nat × Bytes × Bytes
  | 0, s => (0, [], s)
  | n + 1, s =>
    match tk s with
    | .none => (0, [], s)
    | some (t, r) => ((greedy tk n r).1 + 1, t ++ (greedy tk n r).2.1, (greedy tk n r).2.2)

/-- If what follows cannot begin with a token, only the longest repetition counts. -/
theorem many_greedy {f : Bytes → List Match} {tk} (hf : IsTok f tk) : ∀ (lo ex : Nat) (s : Bytes)
    (K : Match → List β), (∀ c u t, tk t ≠ .none → K (c, u, t) = []) →
    (many f lo ex s).flatMap K = if lo ≤ (greedy tk (lo + ex) s).1 then
      K ([], (greedy tk (lo + ex) s).2.1, (greedy tk (lo + ex) s).2.2) else []
  | 0, 0, s, K, _ => by simp [many, greedy]
  | 0, n + 1, s, K, hK => by
    have ih := many_greedy hf 0 n
    rw [show 0 + (n + 1) = n + 1 from Nat.zero_add _]
    simp only [many, List.flatMap_append, List.flatMap_assoc, hf s, greedy, Nat.zero_le, if_true]
    cases h : tk s with
    | none => simp
    | some x =>
      obtain ⟨t, r⟩ := x
      have h0 : K ([], [], s) = [] := hK _ _ _ (by rw [h]; nofun)
      have := ih r (fun y => K (y.1, t ++ y.2.1, y.2.2)) (fun c u t' h' => hK _ _ _ h')
      simp only [Nat.zero_le, if_true, Nat.zero_add] at this
      simp only [List.flatMap_cons, List.flatMap_nil, List.append_nil, andThen, List.flatMap_map, List.nil_append,
        h0, this]
  | lo + 1, n, s, K, hK => by
    have ih := many_greedy hf lo n
    have e : lo + 1 + n = (lo + n) + 1 := by omega
    simp only [many, List.flatMap_assoc, hf s, e, greedy]
    cases h : tk s with
    | none => simp
    | some x =>
      obtain ⟨t, r⟩ := x
      have := ih r (fun y => K (y.1, t ++ y.2.1, y.2.2)) (fun c u t' h' => hK _ _ _ h')
      simp only [List.flatMap_cons, List.flatMap_nil, List.append_nil, andThen, List.flatMap_map, List.nil_append,
        this, Nat.add_le_add_iff_right]

/-- The most preferred match of a repetition up to the length of the text. -/
theorem many_head {f : Bytes → List Match} {tk} (hf : IsTok f tk) : ∀ (ex : Nat) (s : Bytes),
    (many f 0 ex s).head? = some ([], (greedy tk ex s).2.1, (greedy tk ex s).2.2)
  | 0, s => by simp [many, greedy]
  | n + 1, s => by
    have ih := many_head hf n
    simp only [many, hf s, greedy]
    cases h : tk s with
    | none => simp
    | some x =>
      obtain ⟨t, r⟩ := x
      simp only [List.flatMap_cons, List.flatMap_nil, List.append_nil, andThen, List.head?_append, List.head?_map,
        ih, Option.map_some, List.nil_append, Option.some_or]

/-! ## Bytes -/

/-- The token of a class of bytes. -/
def byteTok (p : UInt8 → Bool) : Bytes → Option (Bytes × Bytes)
  | b :: r => if p b then some ([b], r) else .none
  | [] => .none

theorem isTok_byte {rs : List (Nat × Nat)} {p : UInt8 → Bool}
    (h : ∀ b : UInt8, (rs.any fun (lo, hi) => lo ≤ b.toNat && b.toNat ≤ hi) = p b) :
    IsTok (runs nd (.byte rs)) (byteTok p) := by
  intro s
  cases s with
  | nil => rfl
  | cons b r =>
    simp only [runs, byteTok, h]
    cases p b <;> rfl

theorem greedy_byte (p : UInt8 → Bool) : ∀ (n : Nat) (s : Bytes),
    greedy (byteTok p) n s =
      (min n (s.takeWhile p).length, (s.takeWhile p).take n, s.drop (min n (s.takeWhile p).length))
  | 0, s => by simp [greedy]
  | n + 1, [] => by simp [greedy, byteTok]
  | n + 1, b :: r => by
    have ih := greedy_byte p n r
    cases h : p b with
    | false => simp [greedy, byteTok, h]
    | true =>
      simp only [greedy, byteTok, h, if_true, ih, List.takeWhile_cons, List.length_cons, List.take_succ_cons,
        List.singleton_append]
      rw [Nat.add_min_add_right, List.drop_succ_cons]

/-- More of the class follows. -/
theorem drop_takeWhile_head {p : UInt8 → Bool} : ∀ {s : Bytes} {n : Nat}, n < (s.takeWhile p).length →
    ∃ b r, s.drop n = b :: r ∧ p b = true
  | [], n, h => by simp at h
  | b :: r, n, h => by
    rw [List.takeWhile_cons] at h
    split at h
    · cases n with
      | zero => exact ⟨b, r, rfl, by assumption⟩
      | succ n => exact drop_takeWhile_head (s := r) (by simpa using h)
    · simp at h

theorem lit_none_of_head {d b : UInt8} {r : Bytes} (h : b ≠ d) : lit [d] (b :: r) = .none := by
  simp [lit, Ne.symm h]

/-- Up to `N` tokens, at least `lo`, and a delimiter. -/
def field (tk : Bytes → Option (Bytes × Bytes)) (lo N : Nat) (d : UInt8) (s : Bytes) : Option (Bytes × Bytes) :=
  if lo ≤ (greedy tk N s).1 then (lit [d] (greedy tk N s).2.2).map ((greedy tk N s).2.1, ·) else .none

/-- A group of repeated tokens and a delimiter. -/
theorem runs_field {a : Re} {tk} (hf : IsTok (runs nd a) tk) (lo : Nat) (hi : Option Nat) (N : Nat) (s : Bytes)
    (hN : lo + (match hi with | some h => h - lo | none => s.length) = N)
    (d : UInt8) (hd : ∀ t, tk (d :: t) = .none) (n : Nat) (b : Re) (K : Match → List β) :
    (runs nd (.seq (.group n (.seq (.rep lo hi a) .empty)) (.seq (ch d) b)) s).flatMap K =
    match field tk lo N d s with
    | some (run, r) => (runs nd b r).flatMap fun y => K ((n, run) :: y.1, run ++ (d :: y.2.1), y.2.2)
    | .none => [] := by
  have hlit : ∀ t, tk t ≠ .none → lit [d] t = .none := by
    intro t h
    cases t with
    | nil => rfl
    | cons c t =>
      by_cases hc : c = d
      · subst hc; exact absurd (hd t) h
      · exact lit_none_of_head hc
  rw [runs_seq, runs_group, runs_seq]
  simp only [runs_empty, runs_seq, runs_ch]
  have e : runs nd (.rep lo hi a) s = many (runs nd a) lo (N - lo) s := by
    rw [← hN, Nat.add_sub_cancel_left]
    cases hi <;> rfl
  rw [e, many_greedy hf, show lo + (N - lo) = N by omega]
  · unfold field
    split
    · cases lit [d] (greedy tk N s).2.2 <;> simp
    · rfl
  · intro c u t h
    simp only [hlit t h]

theorem hexField_eq (lo hi : Nat) (d : UInt8) (hd : isHex d = false) (s : Bytes) :
    hexField lo hi d s = field (byteTok isHex) lo hi d s := by
  unfold hexField field
  rw [greedy_byte]
  dsimp only
  by_cases hl : (s.takeWhile isHex).length ≤ hi
  · rw [Nat.min_eq_right hl, List.take_of_length_le hl]
    by_cases h1 : lo ≤ (s.takeWhile isHex).length
    · simp [hl, h1]
    · simp [h1]
  · obtain ⟨b, r, e, hb⟩ := drop_takeWhile_head (p := isHex) (s := s) (n := hi) (by omega)
    rw [Nat.min_eq_left (by omega), e, lit_none_of_head (by intro hc; subst hc; rw [hd] at hb; cases hb)]
    simp [hl]

theorem payloadField_eq (s : Bytes) : payloadField s = field (byteTok isPayloadChar) 1 (1 + s.length) 0x2c s := by
  unfold payloadField field
  have hl : (s.takeWhile isPayloadChar).length ≤ 1 + s.length := by
    have := (List.takeWhile_prefix isPayloadChar (l := s)).length_le
    omega
  rw [greedy_byte]
  dsimp only
  rw [Nat.min_eq_right hl, List.take_of_length_le hl]
  by_cases h : s.takeWhile isPayloadChar = []
  · simp [h]
  · have : 1 ≤ (s.takeWhile isPayloadChar).length := List.length_pos_iff.mpr h
    simp [h, this]

/-! ## Digits -/

theorem digitRun_eq (nd : Nat → Bool) : ∀ (n : Nat) (s : Bytes), digitRun nd n s = (greedy (digitTok nd) n s).2
  | 0, s => rfl
  | n + 1, s => by
    have ih := digitRun_eq nd n
    simp only [digitRun, greedy]
    cases digitTok nd s with
    | none => rfl
    | some x => simp only [ih]

theorem isCont_iff (b : UInt8) : isCont b = true ↔ 128 ≤ b.toNat ∧ b.toNat ≤ 191 := by
  simp only [isCont, Bool.and_eq_true, decide_eq_true_eq, UInt8.le_iff_toNat_le]
  exact Iff.rfl

theorem isDigit_iff (b : UInt8) : isDigit b = true ↔ 48 ≤ b.toNat ∧ b.toNat ≤ 57 := by
  simp only [isDigit, Bool.and_eq_true, decide_eq_true_eq, UInt8.le_iff_toNat_le]
  exact Iff.rfl

/-- The forms of a digit. -/
theorem digitTok_inv {nd : Nat → Bool} {s t r : Bytes} (h : digitTok nd s = some (t, r)) :
    s = t ++ r ∧ ((∃ b, t = [b] ∧ isDigit b = true) ∨
    (∃ b0 b1, t = [b0, b1] ∧ (0xc2 ≤ b0.toNat ∧ b0.toNat ≤ 0xdf) ∧ (128 ≤ b1.toNat ∧ b1.toNat ≤ 191) ∧
      nd ((b0.toNat - 0xc0) * 64 + (b1.toNat - 0x80)) = true) ∨
    (∃ b0 b1 b2 n, t = [b0, b1, b2] ∧ (0xe0 ≤ b0.toNat ∧ b0.toNat ≤ 0xef) ∧ (128 ≤ b1.toNat ∧ b1.toNat ≤ 191) ∧
      (128 ≤ b2.toNat ∧ b2.toNat ≤ 191) ∧
      n = ((b0.toNat - 0xe0) * 64 + (b1.toNat - 0x80)) * 64 + (b2.toNat - 0x80) ∧ 0x800 ≤ n ∧ nd n = true) ∨
    (∃ b0 b1 b2 b3 n, t = [b0, b1, b2, b3] ∧ (0xf0 ≤ b0.toNat ∧ b0.toNat ≤ 0xf4) ∧
      (128 ≤ b1.toNat ∧ b1.toNat ≤ 191) ∧ (128 ≤ b2.toNat ∧ b2.toNat ≤ 191) ∧ (128 ≤ b3.toNat ∧ b3.toNat ≤ 191) ∧
      n = (((b0.toNat - 0xf0) * 64 + (b1.toNat - 0x80)) * 64 + (b2.toNat - 0x80)) * 64 + (b3.toNat - 0x80) ∧
      0x10000 ≤ n ∧ nd n = true)) := by
  match s with
  | [] => cases h
  | b0 :: r0 =>
    rw [digitTok.eq_def] at h
    dsimp only at h
    by_cases h0 : isDigit b0 = true
    · rw [if_pos h0] at h
      simp only [Option.some.injEq, Prod.mk.injEq] at h
      obtain ⟨rfl, rfl⟩ := h
      exact ⟨rfl, .inl ⟨b0, rfl, h0⟩⟩
    rw [if_neg h0] at h
    match r0 with
    | [] => cases h
    | b1 :: r1 =>
      dsimp only at h
      split at h
      · rename_i hc
        simp only [Option.some.injEq, Prod.mk.injEq] at h
        obtain ⟨rfl, rfl⟩ := h
        simp only [Bool.and_eq_true, decide_eq_true_eq, UInt8.le_iff_toNat_le, isCont_iff] at hc
        exact ⟨rfl, .inr (.inl ⟨b0, b1, rfl, hc.1.1, hc.1.2, hc.2⟩)⟩
      · match r1 with
        | [] => cases h
        | b2 :: r2 =>
          dsimp only at h
          split at h
          · rename_i hc
            simp only [Option.some.injEq, Prod.mk.injEq] at h
            obtain ⟨rfl, rfl⟩ := h
            simp only [Bool.and_eq_true, decide_eq_true_eq, UInt8.le_iff_toNat_le, isCont_iff] at hc
            exact ⟨rfl, .inr (.inr (.inl ⟨b0, b1, b2, _, rfl, hc.1.1.1.1, hc.1.1.1.2, hc.1.1.2, rfl, hc.1.2, hc.2⟩))⟩
          · match r2 with
            | [] => cases h
            | b3 :: r3 =>
              dsimp only at h
              split at h
              · rename_i hc
                simp only [Option.some.injEq, Prod.mk.injEq] at h
                obtain ⟨rfl, rfl⟩ := h
                simp only [Bool.and_eq_true, decide_eq_true_eq, UInt8.le_iff_toNat_le, isCont_iff] at hc
                exact ⟨rfl, .inr (.inr (.inr ⟨b0, b1, b2, b3, _, rfl, hc.1.1.1.1.1, hc.1.1.1.1.2, hc.1.1.1.2, hc.1.1.2,
                  rfl, hc.1.2, hc.2⟩))⟩
              · cases h

theorem digitTok_ne_nil {nd : Nat → Bool} {s t r : Bytes} (h : digitTok nd s = some (t, r)) : t ≠ [] := by
  rcases (digitTok_inv h).2 with ⟨_, rfl, _⟩ | ⟨_, _, rfl, _⟩ | ⟨_, _, _, _, rfl, _⟩ | ⟨_, _, _, _, _, rfl, _⟩ <;> nofun

theorem ofNat_toNat_eq {b : UInt8} {n : Nat} (h : n = b.toNat) : UInt8.ofNat n = b := by
  subst h; exact UInt8.ofNat_toNat

/-- A digit is the encoding of a character. -/
theorem digitTok_char {nd : Nat → Bool} (hnd : ∀ n, nd n = true → n.isValidChar) {s t r : Bytes}
    (h : digitTok nd s = some (t, r)) : s = t ++ r ∧ ∃ c : Char, t = String.utf8EncodeChar c := by
  obtain ⟨e, h'⟩ := digitTok_inv h
  refine ⟨e, ?_⟩
  clear e h
  have toNat : ∀ (n : Nat) (hn : n.isValidChar), (Char.ofNatAux n hn).val.toNat = n := fun n hn => rfl
  rcases h' with ⟨b, rfl, h⟩ | ⟨b0, b1, rfl, h0, h1, hn⟩ | ⟨b0, b1, b2, n, rfl, h0, h1, h2, en, hl, hn⟩ |
      ⟨b0, b1, b2, b3, n, rfl, h0, h1, h2, h3, en, hl, hn⟩
  · rw [isDigit_iff] at h
    have hv : b.toNat.isValidChar := .inl (by omega)
    refine ⟨Char.ofNatAux b.toNat hv, ?_⟩
    unfold String.utf8EncodeChar
    rw [toNat, if_pos (by omega), UInt8.ofNat_toNat]
  · have hv := hnd _ hn
    refine ⟨Char.ofNatAux _ hv, ?_⟩
    unfold String.utf8EncodeChar
    rw [toNat, if_neg (by omega), if_pos (by omega), ofNat_toNat_eq (b := b0) (by omega),
      ofNat_toNat_eq (b := b1) (by omega)]
  · have hv := hnd _ hn
    refine ⟨Char.ofNatAux _ hv, ?_⟩
    unfold String.utf8EncodeChar
    rw [toNat, if_neg (by omega), if_neg (by omega), if_pos (by omega), ofNat_toNat_eq (b := b0) (by omega),
      ofNat_toNat_eq (b := b1) (by omega), ofNat_toNat_eq (b := b2) (by omega)]
  · have hv := hnd _ hn
    refine ⟨Char.ofNatAux _ hv, ?_⟩
    unfold String.utf8EncodeChar
    rw [toNat, if_neg (by omega), if_neg (by omega), if_neg (by omega), ofNat_toNat_eq (b := b0) (by omega),
      ofNat_toNat_eq (b := b1) (by omega), ofNat_toNat_eq (b := b2) (by omega), ofNat_toNat_eq (b := b3) (by omega)]

theorem digitTok_one (nd : Nat → Bool) (b0 : UInt8) (r : Bytes) (h : isDigit b0 = true) :
    digitTok nd (b0 :: r) = some ([b0], r) := by
  rw [digitTok.eq_def]
  exact if_pos h

theorem digitTok_two (nd : Nat → Bool) (b0 b1 : UInt8) (r : Bytes) (h0 : 0xc2 ≤ b0.toNat ∧ b0.toNat ≤ 0xdf)
    (h1 : 128 ≤ b1.toNat ∧ b1.toNat ≤ 191) (h : nd ((b0.toNat - 0xc0) * 64 + (b1.toNat - 0x80)) = true) :
    digitTok nd (b0 :: b1 :: r) = some ([b0, b1], r) := by
  rw [digitTok.eq_def]
  dsimp only
  rw [if_neg (by rw [isDigit_iff]; omega), if_pos]
  simp only [Bool.and_eq_true, decide_eq_true_eq, UInt8.le_iff_toNat_le, isCont_iff]
  exact ⟨⟨h0, h1⟩, h⟩

theorem digitTok_three (nd : Nat → Bool) (b0 b1 b2 : UInt8) (r : Bytes) (h0 : 0xe0 ≤ b0.toNat ∧ b0.toNat ≤ 0xef)
    (h1 : 128 ≤ b1.toNat ∧ b1.toNat ≤ 191) (h2 : 128 ≤ b2.toNat ∧ b2.toNat ≤ 191)
    (hl : 0x800 ≤ ((b0.toNat - 0xe0) * 64 + (b1.toNat - 0x80)) * 64 + (b2.toNat - 0x80))
    (h : nd (((b0.toNat - 0xe0) * 64 + (b1.toNat - 0x80)) * 64 + (b2.toNat - 0x80)) = true) :
    digitTok nd (b0 :: b1 :: b2 :: r) = some ([b0, b1, b2], r) := by
  rw [digitTok.eq_def]
  dsimp only
  rw [if_neg (by rw [isDigit_iff]; omega), if_neg, if_pos]
  · simp only [Bool.and_eq_true, decide_eq_true_eq, UInt8.le_iff_toNat_le, isCont_iff]
    exact ⟨⟨⟨⟨h0, h1⟩, h2⟩, hl⟩, h⟩
  · simp only [Bool.and_eq_true, decide_eq_true_eq, UInt8.le_iff_toNat_le]
    intro hh
    have : b0.toNat ≤ 0xdf := hh.1.1.2
    omega

theorem digitTok_four (nd : Nat → Bool) (b0 b1 b2 b3 : UInt8) (r : Bytes)
    (h0 : 0xf0 ≤ b0.toNat ∧ b0.toNat ≤ 0xf4)
    (h1 : 128 ≤ b1.toNat ∧ b1.toNat ≤ 191) (h2 : 128 ≤ b2.toNat ∧ b2.toNat ≤ 191)
    (h3 : 128 ≤ b3.toNat ∧ b3.toNat ≤ 191)
    (hl : 0x10000 ≤ (((b0.toNat - 0xf0) * 64 + (b1.toNat - 0x80)) * 64 + (b2.toNat - 0x80)) * 64 + (b3.toNat - 0x80))
    (h : nd ((((b0.toNat - 0xf0) * 64 + (b1.toNat - 0x80)) * 64 + (b2.toNat - 0x80)) * 64 + (b3.toNat - 0x80)) = true) :
    digitTok nd (b0 :: b1 :: b2 :: b3 :: r) = some ([b0, b1, b2, b3], r) := by
  rw [digitTok.eq_def]
  dsimp only
  rw [if_neg (by rw [isDigit_iff]; omega), if_neg, if_neg, if_pos]
  · simp only [Bool.and_eq_true, decide_eq_true_eq, UInt8.le_iff_toNat_le, isCont_iff]
    exact ⟨⟨⟨⟨⟨h0, h1⟩, h2⟩, h3⟩, hl⟩, h⟩
  · simp only [Bool.and_eq_true, decide_eq_true_eq, UInt8.le_iff_toNat_le]
    intro hh
    have : b0.toNat ≤ 0xef := hh.1.1.1.1.2
    omega
  · simp only [Bool.and_eq_true, decide_eq_true_eq, UInt8.le_iff_toNat_le]
    intro hh
    have : b0.toNat ≤ 0xdf := hh.1.1.2
    omega

/-- Whether the encoding of a character is a digit. -/
theorem digitTok_encode (nd : Nat → Bool) (c : Char) (r : Bytes) :
    digitTok nd (String.utf8EncodeChar c ++ r) =
      if isDigitChar nd c then some (String.utf8EncodeChar c, r) else .none := by
  have hv : c.val.toNat < 0x110000 := by
    rcases c.valid with h | h
    · exact Nat.lt_trans h (by decide)
    · exact h.2
  have en : ∀ n : Nat, (UInt8.ofNat n).toNat = n % 256 := fun n => UInt8.toNat_ofNat'
  have ed : isDigitChar nd c = if c.val.toNat < 128 then decide (48 ≤ c.val.toNat ∧ c.val.toNat ≤ 57)
      else nd c.val.toNat := by
    unfold isDigitChar
    rw [← Bool.decide_and]
    rfl
  rw [ed]
  unfold String.utf8EncodeChar
  generalize c.val.toNat = v at *
  dsimp only
  cases hd : (if v < 128 then decide (48 ≤ v ∧ v ≤ 57) else nd v) with
  | true =>
    rw [if_pos rfl]
    by_cases h7 : v ≤ 127
    · rw [if_pos (by omega), decide_eq_true_eq] at hd
      rw [if_pos h7]
      exact digitTok_one nd _ _ (by rw [isDigit_iff, en]; omega)
    rw [if_neg (by omega)] at hd
    rw [if_neg h7]
    by_cases h8 : v ≤ 2047
    · rw [if_pos h8]
      refine digitTok_two nd _ _ _ (by rw [en]; omega) (by rw [en]; omega) ?_
      rw [en, en]
      rw [show (v / 64 % 32 + 192) % 256 - 192 = v / 64 by omega, show (v % 64 + 128) % 256 - 128 = v % 64 by omega,
        show v / 64 * 64 + v % 64 = v by omega]
      exact hd
    rw [if_neg h8]
    by_cases h9 : v ≤ 65535
    · rw [if_pos h9]
      have e : (((v / 4096 % 16 + 224) % 256 - 224) * 64 + ((v / 64 % 64 + 128) % 256 - 128)) * 64 +
          ((v % 64 + 128) % 256 - 128) = v := by omega
      refine digitTok_three nd _ _ _ _ (by rw [en]; omega) (by rw [en]; omega) (by rw [en]; omega) ?_ ?_
      · rw [en, en, en, e]; omega
      · rw [en, en, en, e]; exact hd
    · rw [if_neg h9]
      have e : ((((v / 262144 % 8 + 240) % 256 - 240) * 64 + ((v / 4096 % 64 + 128) % 256 - 128)) * 64 +
          ((v / 64 % 64 + 128) % 256 - 128)) * 64 + ((v % 64 + 128) % 256 - 128) = v := by omega
      refine digitTok_four nd _ _ _ _ _ (by rw [en]; omega) (by rw [en]; omega) (by rw [en]; omega)
        (by rw [en]; omega) ?_ ?_
      · rw [en, en, en, en, e]; omega
      · rw [en, en, en, en, e]; exact hd
  | false =>
    rw [if_neg Bool.false_ne_true]
    have hcl : ∀ s : Bytes, (∀ t r', s = t ++ r' → ¬ ((∃ b, t = [b] ∧ isDigit b = true) ∨
        (∃ b0 b1, t = [b0, b1] ∧ (0xc2 ≤ b0.toNat ∧ b0.toNat ≤ 0xdf) ∧ (128 ≤ b1.toNat ∧ b1.toNat ≤ 191) ∧
          nd ((b0.toNat - 0xc0) * 64 + (b1.toNat - 0x80)) = true) ∨
        (∃ b0 b1 b2 n, t = [b0, b1, b2] ∧ (0xe0 ≤ b0.toNat ∧ b0.toNat ≤ 0xef) ∧ (128 ≤ b1.toNat ∧ b1.toNat ≤ 191) ∧
          (128 ≤ b2.toNat ∧ b2.toNat ≤ 191) ∧
          n = ((b0.toNat - 0xe0) * 64 + (b1.toNat - 0x80)) * 64 + (b2.toNat - 0x80) ∧ 0x800 ≤ n ∧ nd n = true) ∨
        (∃ b0 b1 b2 b3 n, t = [b0, b1, b2, b3] ∧ (0xf0 ≤ b0.toNat ∧ b0.toNat ≤ 0xf4) ∧
          (128 ≤ b1.toNat ∧ b1.toNat ≤ 191) ∧ (128 ≤ b2.toNat ∧ b2.toNat ≤ 191) ∧
          (128 ≤ b3.toNat ∧ b3.toNat ≤ 191) ∧
          n = (((b0.toNat - 0xf0) * 64 + (b1.toNat - 0x80)) * 64 + (b2.toNat - 0x80)) * 64 + (b3.toNat - 0x80) ∧
          0x10000 ≤ n ∧ nd n = true))) → digitTok nd s = .none := by
      intro s hs
      cases h : digitTok nd s with
      | none => rfl
      | some x => exact absurd (digitTok_inv h).2 (hs _ _ (digitTok_inv h).1)
    apply hcl
    intro t r' e h
    have hne : 128 ≤ v → ∀ n, nd n = true → n ≠ v := by
      rintro h1 n h rfl
      rw [if_neg (by omega), h] at hd
      cases hd
    have hdd : v < 128 → ¬ (48 ≤ v ∧ v ≤ 57) := by
      intro h1
      rw [if_pos h1, decide_eq_false_iff_not] at hd
      exact hd
    clear hd ed hcl
    by_cases h7 : v ≤ 127
    · rw [if_pos h7] at e
      have hdd := hdd (by omega)
      rcases h with ⟨b, rfl, h⟩ | ⟨b0, b1, rfl, h0, h1, hn⟩ | ⟨b0, b1, b2, n, rfl, h0, h1, h2, en', hl, hn⟩ |
          ⟨b0, b1, b2, b3, n, rfl, h0, h1, h2, h3, en', hl, hn⟩
      all_goals
        simp only [List.cons_append, List.nil_append, List.cons.injEq] at e
        have e0 := (en _).symm.trans (congrArg UInt8.toNat e.1)
      · rw [isDigit_iff] at h; omega
      · omega
      · omega
      · omega
    rw [if_neg h7] at e
    have hne := hne (by omega)
    by_cases h8 : v ≤ 2047
    · rw [if_pos h8] at e
      rcases h with ⟨b, rfl, h⟩ | ⟨b0, b1, rfl, h0, h1, hn⟩ | ⟨b0, b1, b2, n, rfl, h0, h1, h2, en', hl, hn⟩ |
          ⟨b0, b1, b2, b3, n, rfl, h0, h1, h2, h3, en', hl, hn⟩
      all_goals
        simp only [List.cons_append, List.nil_append, List.cons.injEq] at e
        have e0 := (en _).symm.trans (congrArg UInt8.toNat e.1)
      · rw [isDigit_iff] at h; omega
      · have e1 := (en _).symm.trans (congrArg UInt8.toNat e.2.1)
        exact hne _ hn (by omega)
      · omega
      · omega
    rw [if_neg h8] at e
    by_cases h9 : v ≤ 65535
    · rw [if_pos h9] at e
      rcases h with ⟨b, rfl, h⟩ | ⟨b0, b1, rfl, h0, h1, hn⟩ | ⟨b0, b1, b2, n, rfl, h0, h1, h2, en', hl, hn⟩ |
          ⟨b0, b1, b2, b3, n, rfl, h0, h1, h2, h3, en', hl, hn⟩
      all_goals
        simp only [List.cons_append, List.nil_append, List.cons.injEq] at e
        have e0 := (en _).symm.trans (congrArg UInt8.toNat e.1)
      · rw [isDigit_iff] at h; omega
      · omega
      · have e1 := (en _).symm.trans (congrArg UInt8.toNat e.2.1)
        have e2 := (en _).symm.trans (congrArg UInt8.toNat e.2.2.1)
        exact hne _ hn (by omega)
      · omega
    · rw [if_neg h9] at e
      rcases h with ⟨b, rfl, h⟩ | ⟨b0, b1, rfl, h0, h1, hn⟩ | ⟨b0, b1, b2, n, rfl, h0, h1, h2, en', hl, hn⟩ |
          ⟨b0, b1, b2, b3, n, rfl, h0, h1, h2, h3, en', hl, hn⟩
      all_goals
        simp only [List.cons_append, List.nil_append, List.cons.injEq] at e
        have e0 := (en _).symm.trans (congrArg UInt8.toNat e.1)
      · rw [isDigit_iff] at h; omega
      · omega
      · omega
      · have e1 := (en _).symm.trans (congrArg UInt8.toNat e.2.1)
        have e2 := (en _).symm.trans (congrArg UInt8.toNat e.2.2.1)
        have e3 := (en _).symm.trans (congrArg UInt8.toNat e.2.2.2.1)
        exact hne _ hn (by omega)

theorem isTok_digit {nd : Nat → Bool} (hnd : ∀ n, nd n = true → n.isValidChar) :
    IsTok (runs nd .digit) (digitTok nd) := by
  intro s
  simp only [runs]
  cases h : s.toByteArray.utf8DecodeChar? 0 with
  | some c =>
    obtain ⟨l, e⟩ := ByteArray.exists_of_utf8DecodeChar?_eq_some h
    have e : s = String.utf8EncodeChar c ++ l.data.toList := by
      have := congrArg (fun b => b.data.toList) e
      simpa using this
    have hl : (String.utf8EncodeChar c).length = c.utf8Size := String.length_utf8EncodeChar c
    dsimp only
    rw [e, digitTok_encode, ← hl]
    cases isDigitChar nd c <;> simp
  | none =>
    cases h' : digitTok nd s with
    | none => rfl
    | some x =>
      obtain ⟨t, r⟩ := x
      obtain ⟨e, c, rfl⟩ := digitTok_char hnd h'
      rw [e, List.toByteArray_append, ByteArray.utf8DecodeChar?_utf8EncodeChar_append] at h
      cases h

theorem numField_eq (nd : Nat → Bool) (s : Bytes) : numField nd s = field (digitTok nd) 1 5 0x2c s := by
  unfold numField field
  rw [digitRun_eq]
  have : (greedy (digitTok nd) 5 s).2.1 = [] ↔ ¬ 1 ≤ (greedy (digitTok nd) 5 s).1 := by
    rw [greedy]
    cases h : digitTok nd s with
    | none => simp
    | some x =>
      have := digitTok_ne_nil h
      simp [this]
  dsimp only
  by_cases h : 1 ≤ (greedy (digitTok nd) 5 s).1
  · rw [if_neg (by rw [this]; exact not_not_intro h), if_pos h]
  · rw [if_pos (this.mpr h), if_neg h]

theorem digitTok_delim (nd : Nat → Bool) (d : UInt8) (h : d.toNat < 128) (h' : isDigit d = false) (t : Bytes) :
    digitTok nd (d :: t) = .none := by
  cases hd : digitTok nd (d :: t) with
  | none => rfl
  | some x =>
    obtain ⟨u, r⟩ := x
    obtain ⟨e, hh⟩ := digitTok_inv hd
    rcases hh with ⟨b, rfl, hb⟩ | ⟨b0, b1, rfl, h0, _⟩ | ⟨b0, b1, b2, n, rfl, h0, _⟩ | ⟨b0, b1, b2, b3, n, rfl, h0, _⟩
    all_goals
      simp only [List.cons_append, List.nil_append, List.cons.injEq] at e
      have e0 := congrArg UInt8.toNat e.1
    · rw [e.1, hb] at h'; cases h'
    · omega
    · omega
    · omega

/-! ## The patterns of fragments -/

/-- A group. -/
abbrev grp (n : Nat) (a : Re) : Re := .group n (.seq a .empty)

/-- `[0-9a-fA-F]`. -/
abbrev hexRe : Re := .byte [(48, 57), (97, 102), (65, 70)]

/-- `[A-Za-z0-9\+/=\?:\.]`. -/
abbrev payloadRe : Re :=
  .byte [(65, 90), (97, 122), (48, 57), (43, 43), (47, 47), (61, 61), (63, 63), (58, 58), (46, 46)]

/-- The part common to both patterns. -/
def tailRe (k : Nat) : Re :=
  .seq (grp k (.rep 1 (some 8) hexRe)) (.seq (ch 0x7c)
  (.seq (grp (k + 1) (.rep 1 (some 8) hexRe)) (.seq (ch 0x2c)
  (.seq (grp (k + 2) (.rep 1 (some 5) .digit)) (.seq (ch 0x2c)
  (.seq (grp (k + 3) (.rep 1 (some 5) .digit)) (.seq (ch 0x2c)
  (.seq (grp (k + 4) (.rep 1 none payloadRe)) (.seq (ch 0x2c) .empty)))))))))

/-- `a` after the prefix `?OTR`. -/
def otrRe (a : Re) : Re := .seq (ch 0x3f) (.seq (ch 0x4f) (.seq (ch 0x54) (.seq (ch 0x52) a)))

theorem compile_v3 : compile FRAGMENT_V3_PATTERN = some (otrRe (.seq (ch 0x7c) (tailRe 1))) := by
  decide +kernel

theorem compile_v4 : compile FRAGMENT_V4_PATTERN = some (otrRe (.seq (ch 0x7c)
    (.seq (grp 1 (.rep 8 (some 8) hexRe)) (.seq (ch 0x7c) (tailRe 2))))) := by
  decide +kernel

theorem lit_cons (c : UInt8) (p s : Bytes) : lit (c :: p) s = (lit [c] s).bind (lit p) := by
  cases s with
  | nil => rfl
  | cons b r =>
    by_cases h : c = b
    · subst h; simp [lit]
    · simp [lit, h]

theorem fin_forall {P : UInt8 → Prop} (h : ∀ n : Fin 256, P (UInt8.ofNat n.val)) (b : UInt8) : P b := by
  have := h ⟨b.toNat, b.toNat_lt⟩
  rwa [UInt8.ofNat_toNat] at this

theorem hexRe_class : ∀ b : UInt8, ([(48, 57), (97, 102), (65, 70)].any
    fun (lo, hi) => decide (lo ≤ b.toNat) && decide (b.toNat ≤ hi)) = isHex b :=
  fin_forall (by decide +kernel)

theorem payloadRe_class : ∀ b : UInt8, ([(65, 90), (97, 122), (48, 57), (43, 43), (47, 47), (61, 61), (63, 63),
    (58, 58), (46, 46)].any fun (lo, hi) => decide (lo ≤ b.toNat) && decide (b.toNat ≤ hi)) = isPayloadChar b :=
  fin_forall (by decide +kernel)

theorem byteTok_delim {p : UInt8 → Bool} {d : UInt8} (h : p d = false) (t : Bytes) : byteTok p (d :: t) = .none := by
  simp [byteTok, h]

/-- What the groups of the common part match. -/
def tailCaps (k : Nat) (c : FragCaptures) : List (Nat × Bytes) :=
  [(k, c.sender), (k + 1, c.receiver), (k + 2, c.part), (k + 3, c.total), (k + 4, c.payload)]

theorem runs_tail (hnd : ∀ n, nd n = true → n.isValidChar) (k : Nat) (ident s : Bytes)
    (g : List (Nat × Bytes) → β) :
    (runs nd (tailRe k) s).flatMap (fun y => [g y.1]) =
      match fragTail nd ident s with
      | some c => [g (tailCaps k c)]
      | .none => [] := by
  unfold tailRe fragTail
  rw [runs_field (isTok_byte hexRe_class) 1 (some 8) 8 s rfl 0x7c (byteTok_delim (by decide)),
    hexField_eq 1 8 0x7c (by decide) s]
  cases field (byteTok isHex) 1 8 0x7c s with
  | none => rfl
  | some x =>
  obtain ⟨sender, s⟩ := x
  dsimp only [Option.bind_eq_bind, Option.bind_some]
  rw [runs_field (isTok_byte hexRe_class) 1 (some 8) 8 s rfl 0x2c (byteTok_delim (by decide)),
    hexField_eq 1 8 0x2c (by decide) s]
  cases field (byteTok isHex) 1 8 0x2c s with
  | none => rfl
  | some x =>
  obtain ⟨receiver, s⟩ := x
  dsimp only [Option.bind_eq_bind, Option.bind_some]
  rw [runs_field (isTok_digit hnd) 1 (some 5) 5 s rfl 0x2c (digitTok_delim nd _ (by decide) (by decide)), numField_eq]
  cases field (digitTok nd) 1 5 0x2c s with
  | none => rfl
  | some x =>
  obtain ⟨part, s⟩ := x
  dsimp only [Option.bind_eq_bind, Option.bind_some]
  rw [runs_field (isTok_digit hnd) 1 (some 5) 5 s rfl 0x2c (digitTok_delim nd _ (by decide) (by decide)), numField_eq]
  cases field (digitTok nd) 1 5 0x2c s with
  | none => rfl
  | some x =>
  obtain ⟨total, s⟩ := x
  dsimp only [Option.bind_eq_bind, Option.bind_some]
  rw [runs_field (isTok_byte payloadRe_class) 1 none (1 + s.length) s rfl 0x2c (byteTok_delim (by decide)),
    payloadField_eq]
  cases field (byteTok isPayloadChar) 1 (1 + s.length) 0x2c s with
  | none => rfl
  | some x =>
  obtain ⟨payload, s⟩ := x
  dsimp only [Option.bind_eq_bind, Option.bind_some]
  rw [runs_empty]
  rfl

theorem runs_otr (a : Re) (s : Bytes) (g : List (Nat × Bytes) → β) :
    (runs nd (otrRe a) s).flatMap (fun y => [g y.1]) =
      match lit [0x3f, 0x4f, 0x54, 0x52] s with
      | some r => (runs nd a r).flatMap fun y => [g y.1]
      | .none => [] := by
  unfold otrRe
  rw [lit_cons, runs_seq, runs_ch]
  cases lit [0x3f] s with
  | none => rfl
  | some s =>
  dsimp only [Option.bind_some]
  rw [lit_cons, runs_seq, runs_ch]
  cases lit [0x4f] s with
  | none => rfl
  | some s =>
  dsimp only [Option.bind_some]
  rw [lit_cons, runs_seq, runs_ch]
  cases lit [0x54] s with
  | none => rfl
  | some s =>
  dsimp only [Option.bind_some]
  rw [runs_seq, runs_ch]
  cases lit [0x52] s with
  | none => rfl
  | some s => rfl

theorem flatMap_singleton_eq (l : List α) (f : α → β) : (l.flatMap fun y => [f y]) = l.map f := by
  induction l with
  | nil => rfl
  | cons a l ih => simp [ih]

theorem lit_append (p q s : Bytes) : lit (p ++ q) s = (lit p s).bind (lit q) := by
  induction p generalizing s with
  | nil => simp [lit]
  | cons c p ih =>
    rw [List.cons_append, lit_cons, lit_cons c p]
    cases lit [c] s with
    | none => rfl
    | some s => exact ih s

theorem runs_v3 (hnd : ∀ n, nd n = true → n.isValidChar) (s : Bytes) :
    (runs nd (otrRe (.seq (ch 0x7c) (tailRe 1))) s).map (·.1) =
      match fragV3At nd s with
      | some c => [tailCaps 1 c]
      | .none => [] := by
  rw [← flatMap_singleton_eq, runs_otr _ s (fun l => l)]
  unfold fragV3At
  rw [show OTR_FRAGMENT_V3_PREFIX = [0x3f, 0x4f, 0x54, 0x52] ++ [0x7c] from rfl, lit_append]
  cases lit [0x3f, 0x4f, 0x54, 0x52] s with
  | none => rfl
  | some s =>
  dsimp only [Option.bind_eq_bind, Option.bind_some]
  rw [runs_seq, runs_ch]
  cases lit [0x7c] s with
  | none => rfl
  | some s =>
  dsimp only [Option.bind_eq_bind, Option.bind_some, List.nil_append]
  exact runs_tail hnd 1 [] s (fun l => l)

theorem runs_v4 (hnd : ∀ n, nd n = true → n.isValidChar) (s : Bytes) :
    (runs nd (otrRe (.seq (ch 0x7c)
    (.seq (grp 1 (.rep 8 (some 8) hexRe)) (.seq (ch 0x7c) (tailRe 2))))) s).map (·.1) =
      match fragV4At nd s with
      | some c => [(1, c.ident) :: tailCaps 2 c]
      | .none => [] := by
  rw [← flatMap_singleton_eq, runs_otr _ s (fun l => l)]
  unfold fragV4At
  rw [show OTR_FRAGMENT_V3_PREFIX = [0x3f, 0x4f, 0x54, 0x52] ++ [0x7c] from rfl, lit_append]
  cases lit [0x3f, 0x4f, 0x54, 0x52] s with
  | none => rfl
  | some s =>
  dsimp only [Option.bind_eq_bind, Option.bind_some]
  rw [runs_seq, runs_ch]
  cases lit [0x7c] s with
  | none => rfl
  | some s =>
  dsimp only [Option.bind_eq_bind, Option.bind_some, List.nil_append]
  rw [runs_field (isTok_byte hexRe_class) 8 (some 8) 8 s rfl 0x7c (byteTok_delim (by decide)),
    hexField_eq 8 8 0x7c (by decide) s]
  cases field (byteTok isHex) 8 8 0x7c s with
  | none => rfl
  | some x =>
  obtain ⟨ident, s⟩ := x
  dsimp only [Option.bind_eq_bind, Option.bind_some]
  rw [runs_tail hnd 2 ident s (fun l => (1, ident) :: l)]
  cases h : fragTail nd ident s with
  | none => rfl
  | some c =>
    have : c.ident = ident := by
      unfold fragTail at h
      simp only [Option.bind_eq_bind, Option.bind_eq_some_iff, Prod.exists] at h
      obtain ⟨_, _, _, _, _, _, _, _, _, _, _, _, _, _, _, h⟩ := h
      injection h with h
      rw [← h]
    dsimp only
    rw [this]

/-! ## The pattern of queries -/

/-- `(:?v(\d*))?\?`. -/
def queryRe : Re :=
  .seq (.rep 0 (some 1) (.group 1 (.seq (.rep 0 (some 1) (ch 0x3a))
    (.seq (ch 0x76) (.seq (grp 2 (.rep 0 none .digit)) .empty))))) (.seq (ch 0x3f) .empty)

theorem compile_query : compile QUERY_PATTERN = some (otrRe (.seq (.rep 0 (some 1) (ch 0x3f)) queryRe)) := by
  decide +kernel

theorem runs_opt (a : Re) (s : Bytes) (K : Match → List β) :
    (runs nd (.rep 0 (some 1) a) s).flatMap K = (runs nd a s).flatMap K ++ K ([], [], s) := by
  simp only [runs, Nat.sub_zero, many, List.flatMap_append, List.flatMap_assoc, andThen, List.map_cons, List.map_nil,
    List.append_nil, List.flatMap_cons, List.flatMap_nil]

/-- What group 1 matched. -/
def cap1 (l : List (Nat × Bytes)) : Option Bytes := ((l.filter (·.1 == 1)).getLast?).map (·.2)

theorem runs_query (hnd : ∀ n, nd n = true → n.isValidChar) (s : Bytes) :
    (runs nd queryRe s).flatMap (fun y => [cap1 y.1]) =
      (queryGroup nd s).toList.map some ++ (lit [0x3f] s).toList.map fun _ => .none := by
  have hlit : ∀ t, digitTok nd t ≠ .none → lit [0x3f] t = .none := by
    intro t h
    cases t with
    | nil => rfl
    | cons c t =>
      by_cases hc : c = 0x3f
      · subst hc; exact absurd (digitTok_delim nd _ (by decide) (by decide) t) h
      · exact lit_none_of_head hc
  -- after the colon
  have hv : ∀ (colon r : Bytes),
      ((runs nd (.seq (ch 0x76) (.seq (grp 2 (.rep 0 none .digit)) .empty)) r).flatMap fun y =>
        match lit [0x3f] y.2.2 with
        | some r => [cap1 (y.1 ++ [(1, colon ++ y.2.1)])]
        | .none => []) =
      match lit [0x76] r with
      | some r => ((lit [0x3f] (digitRun nd r.length r).2).map
          fun _ => some (colon ++ [0x76] ++ (digitRun nd r.length r).1)).toList
      | .none => [] := by
    intro colon r
    rw [runs_seq, runs_ch]
    cases lit [0x76] r with
    | none => rfl
    | some r =>
      dsimp only
      rw [runs_seq, runs_group, runs_seq]
      simp only [runs_empty]
      have e : runs nd (.rep 0 none .digit) r = many (runs nd .digit) 0 r.length r := by simp only [runs]
      rw [e, many_greedy (isTok_digit hnd), if_pos (Nat.zero_le _), Nat.zero_add, digitRun_eq]
      · cases lit [0x3f] (greedy (digitTok nd) r.length r).2.2 with
        | none => rfl
        | some r' => simp [cap1]
      · intro c u t h
        simp only [hlit t h]
  unfold queryRe
  rw [runs_seq, runs_opt, runs_group, runs_seq, runs_opt]
  have hK : ∀ (l : List (Nat × Bytes)) (u t : Bytes),
      ((runs nd (.seq (ch 0x3f) .empty) t).flatMap fun y => [cap1 (l ++ y.1)]) =
        match lit [0x3f] t with
        | some _ => [cap1 l]
        | .none => [] := by
    intro l u t
    rw [runs_seq, runs_ch]
    cases lit [0x3f] t with
    | none => rfl
    | some r => simp only [runs_empty, List.append_nil]
  simp only [hK _ [], runs_ch, List.nil_append]
  congr 1
  · have h1 : queryGroup nd s = (match lit [0x3a] s with
        | some r => (match lit [0x76] r with
          | some r => (lit [0x3f] (digitRun nd r.length r).2).map
              fun _ => [0x3a] ++ [0x76] ++ (digitRun nd r.length r).1
          | .none => .none)
        | .none => (match lit [0x76] s with
          | some r => (lit [0x3f] (digitRun nd r.length r).2).map
              fun _ => [] ++ [0x76] ++ (digitRun nd r.length r).1
          | .none => .none)) := by
      unfold queryGroup
      cases lit [0x3a] s with
      | none => cases h : lit [0x76] s <;> simp only [h]
      | some r => cases h : lit [0x76] r <;> simp only [h]
    have h2 := hv [0x3a]
    have h3 := hv []
    rw [h1]
    simp only [List.nil_append] at h3
    cases h : lit [0x3a] s with
    | none =>
      dsimp only
      rw [List.nil_append]
      refine (h3 s).trans ?_
      cases lit [0x76] s with
      | none => rfl
      | some r =>
        dsimp only
        cases lit [0x3f] (digitRun nd r.length r).2 <;> rfl
    | some r =>
      have hn : lit [0x76] s = .none := by
        cases s with
        | nil => rfl
        | cons c t =>
          refine lit_none_of_head ?_
          rintro rfl
          rw [lit_none_of_head (by decide)] at h
          cases h
      have h3 := h3 s
      rw [hn] at h3
      dsimp only at h3 ⊢
      refine (congrArg₂ (· ++ ·) (h2 r) h3).trans ?_
      rw [List.append_nil]
      cases lit [0x76] r with
      | none => rfl
      | some r =>
        dsimp only
        cases lit [0x3f] (digitRun nd r.length r).2 <;> rfl
  · refine (hK [] [] s).trans ?_
    cases lit [0x3f] s <;> rfl

/-- The most preferred match of the pattern of queries. -/
theorem head_query (hnd : ∀ n, nd n = true → n.isValidChar) (s : Bytes) :
    ((runs nd (otrRe (.seq (.rep 0 (some 1) (ch 0x3f)) queryRe)) s).head?).map (fun x => cap1 x.1) = queryAt nd s := by
  rw [← List.head?_map, ← flatMap_singleton_eq, runs_otr]
  unfold queryAt
  cases lit [0x3f, 0x4f, 0x54, 0x52] s with
  | none => rfl
  | some r =>
  dsimp only
  rw [runs_seq, runs_opt, runs_ch]
  simp only [List.nil_append]
  cases h : lit [0x3f] r with
  | none =>
    dsimp only
    rw [runs_query hnd, h]
    cases queryGroup nd r <;> rfl
  | some r1 =>
    dsimp only
    rw [runs_query hnd, runs_query hnd, h]
    have hq : queryGroup nd r = .none := by
      cases r with
      | nil => rfl
      | cons c t =>
        have hc : c = 0x3f := by
          by_contra hc
          rw [lit_none_of_head hc] at h
          cases h
        subst hc
        unfold queryGroup
        rw [lit_none_of_head (by decide)]
        dsimp only
        rw [lit_none_of_head (by decide)]
    rw [hq]
    cases queryGroup nd r1 with
    | some g => rfl
    | none => cases lit [0x3f] r1 <;> rfl

/-! ## The pattern of whitespace tags -/

/-- `[ \t]`. -/
abbrev blankRe : Re := .byte [(32, 32), (9, 9)]

/-- `([ \t]{8})*`. -/
def blocksRe : Re := .seq (.rep 0 none (grp 1 (.rep 8 (some 8) blankRe))) .empty

/-- Literal bytes, then `a`. -/
def litRe : Bytes → Re → Re
  | [], a => a
  | c :: p, a => .seq (ch c) (litRe p a)

theorem compile_whitespace : compile WHITESPACE_PATTERN = some (litRe WHITESPACE_PREFIX blocksRe) := by
  decide +kernel

theorem runs_lit (p : Bytes) (a : Re) (s : Bytes) (g : List (Nat × Bytes) → Bytes → β) :
    (runs nd (litRe p a) s).flatMap (fun y => [g y.1 y.2.2]) =
      match lit p s with
      | some r => (runs nd a r).flatMap fun y => [g y.1 y.2.2]
      | .none => [] := by
  induction p generalizing s with
  | nil => simp [litRe, lit]
  | cons c p ih =>
    unfold litRe
    rw [runs_seq, runs_ch, lit_cons c p]
    cases lit [c] s with
    | none => rfl
    | some r => exact ih r

theorem blankRe_class : ∀ b : UInt8, ([(32, 32), (9, 9)].any
    fun (lo, hi) => decide (lo ≤ b.toNat) && decide (b.toNat ≤ hi)) = isBlank b :=
  fin_forall (by decide +kernel)

theorem many_exact {f : Bytes → List Match} {tk} (hf : IsTok f tk) : ∀ (n : Nat) (s : Bytes),
    many f n 0 s = if n ≤ (greedy tk n s).1 then [([], (greedy tk n s).2.1, (greedy tk n s).2.2)] else []
  | 0, s => by simp [many, greedy]
  | n + 1, s => by
    have ih := many_exact hf n
    cases h : tk s with
    | none => simp [many, hf s, greedy, h]
    | some x =>
      obtain ⟨t, r⟩ := x
      simp only [many, hf s, greedy, h, List.flatMap_cons, List.flatMap_nil, List.append_nil, andThen, ih r, Nat.add_le_add_iff_right]
      split <;> simp

theorem takeWhile_ge {p : UInt8 → Bool} : ∀ {n : Nat} {s : Bytes}, n ≤ (s.takeWhile p).length ↔
    n ≤ s.length ∧ (s.take n).all p = true
  | 0, s => by simp
  | n + 1, [] => by simp
  | n + 1, b :: r => by
    have ih := takeWhile_ge (p := p) (n := n) (s := r)
    cases h : p b with
    | false => simp [h]
    | true => simp [h, ih]

/-- Eight blanks. -/
theorem runs_block (s : Bytes) : runs nd (grp 1 (.rep 8 (some 8) blankRe)) s =
    if 8 ≤ s.length && (s.take 8).all isBlank then [([(1, s.take 8)], s.take 8, s.drop 8)] else [] := by
  have e : runs nd (.rep 8 (some 8) blankRe) s = many (runs nd blankRe) 8 0 s := by simp only [runs]
  have e2 : runs nd (grp 1 (.rep 8 (some 8) blankRe)) s =
      (runs nd (.rep 8 (some 8) blankRe) s).map fun x => (x.1 ++ [(1, x.2.1)], x.2.1, x.2.2) := by
    rw [← flatMap_singleton_eq, ← List.flatMap_singleton' (l := runs nd (grp 1 _) s), runs_group, runs_seq]
    simp only [runs_empty, List.append_nil]
  rw [e2, e, many_exact (isTok_byte blankRe_class), greedy_byte]
  dsimp only
  by_cases h : 8 ≤ (s.takeWhile isBlank).length
  · have h' := takeWhile_ge.mp h
    rw [if_pos (by omega), if_pos (by simp [h'])]
    have e3 : (s.takeWhile isBlank).take 8 = s.take 8 := by
      obtain ⟨t, ht⟩ := List.takeWhile_prefix isBlank (l := s)
      conv => rhs; rw [← ht]
      rw [List.take_append_of_le_length h]
    rw [e3, Nat.min_eq_left h]
    rfl
  · rw [if_neg (by omega), if_neg]
    · rfl
    · intro h'
      simp only [Bool.and_eq_true, decide_eq_true_eq] at h'
      exact h (takeWhile_ge.mpr h')

theorem head_blocks : ∀ (n : Nat) (s : Bytes), ∃ caps u,
    (many (runs nd (grp 1 (.rep 8 (some 8) blankRe))) 0 n s).head? = some (caps, u, (wsBlocks n .none s).2) ∧
    ∀ last, wsBlocks n last s = ((cap1 caps).or last, (wsBlocks n .none s).2)
  | 0, s => ⟨[], [], by simp only [many, wsBlocks, List.head?_cons], fun _ => rfl⟩
  | n + 1, s => by
    unfold many
    rw [runs_block]
    by_cases h : (decide (8 ≤ s.length) && (s.take 8).all isBlank) = true
    · obtain ⟨caps, u, h1, h2⟩ := head_blocks n (s.drop 8)
      have e : ∀ last, wsBlocks (n + 1) last s = wsBlocks n (some (s.take 8)) (s.drop 8) := by
        intro last
        rw [wsBlocks, if_pos h]
      refine ⟨(1, s.take 8) :: caps, s.take 8 ++ u, ?_, ?_⟩
      · rw [if_pos h, e, h2]
        simp only [List.flatMap_cons, List.flatMap_nil, List.append_nil, andThen, List.head?_append, List.head?_map, h1,
          Option.map_some, Option.some_or, List.singleton_append]
      · intro last
        rw [e, e, h2]
        refine Prod.ext ?_ rfl
        dsimp only
        have : cap1 ((1, s.take 8) :: caps) = (cap1 caps).or (some (s.take 8)) := by
          unfold cap1
          rw [List.filter_cons_of_pos (by rfl), List.getLast?_cons]
          cases (caps.filter (·.1 == 1)).getLast? <;> rfl
        rw [this]
        cases cap1 caps <;> rfl
    · have e : ∀ last, wsBlocks (n + 1) last s = (last, s) := by
        intro last
        rw [wsBlocks, if_neg h]
      refine ⟨[], [], ?_, ?_⟩
      · rw [if_neg h, e]; rfl
      · intro last
        rw [e, e]
        rfl

/-- The most preferred match of the pattern of tags. -/
theorem head_whitespace (s : Bytes) :
    ((runs nd (litRe WHITESPACE_PREFIX blocksRe) s).head?).map (fun x => (cap1 x.1, x.2.2)) = wsAt s := by
  rw [← List.head?_map, ← flatMap_singleton_eq, runs_lit WHITESPACE_PREFIX blocksRe s fun a b => (cap1 a, b)]
  unfold wsAt
  cases lit WHITESPACE_PREFIX s with
  | none => rfl
  | some r =>
  dsimp only [Option.map_some]
  unfold blocksRe
  rw [runs_seq]
  simp only [runs_empty, List.append_nil]
  rw [flatMap_singleton_eq, List.head?_map]
  obtain ⟨caps, u, h1, h2⟩ := head_blocks (nd := nd) r.length r
  have e : runs nd (.rep 0 none (grp 1 (.rep 8 (some 8) blankRe))) r =
      many (runs nd (grp 1 (.rep 8 (some 8) blankRe))) 0 r.length r := by simp only [runs]
  rw [e, h1, h2]
  simp

/-! ## Searching -/

theorem search_firstMatch {r : Re} {m : Bytes → Option α} {g : Match → α}
    (h : ∀ s, ((runs nd r s).head?).map g = m s) : ∀ s, (search nd r s).map g = firstMatch m s
  | [] => by rw [search, firstMatch, h]
  | b :: s => by
    rw [search, firstMatch, ← h (b :: s)]
    cases (runs nd r (b :: s)).head? with
    | some x => rfl
    | none => exact search_firstMatch h s

theorem remove_eq : ∀ (n : Nat) (s : Bytes), remove nd (litRe WHITESPACE_PREFIX blocksRe) n s = wsRemove n s
  | 0, s => rfl
  | n + 1, [] => rfl
  | n + 1, b :: s => by
    rw [remove, wsRemove, ← head_whitespace (nd := nd) (b :: s)]
    cases (runs nd (litRe WHITESPACE_PREFIX blocksRe) (b :: s)).head? with
    | some x => exact remove_eq n x.2.2
    | none => exact congrArg (b :: ·) (remove_eq n s)

end Otrr.Spec.Regex
