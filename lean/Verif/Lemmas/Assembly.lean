import Verif.Lemmas.Fragment
/-! Lemmas about fragmentation and reassembly. -/

namespace Otrr

/-! ### Maps -/

section
variable [DecidableEq κ]

@[simp] theorem lookup_insertKey (m : List (κ × α)) (k k' : κ) (a : α) :
    lookup (insertKey m k a) k' = if k = k' then some a else lookup m k' := by
  induction m with
  | nil => simp [insertKey, lookup]
  | cons e m ih =>
    obtain ⟨k0, a0⟩ := e
    simp only [insertKey]
    split
    · next h => subst h; simp only [lookup]; split <;> rfl
    · next h =>
      simp only [lookup, ih]
      split
      · next h2 => subst h2; rw [if_neg (Ne.symm h)]
      · rfl

@[simp] theorem lookup_eraseKey (m : List (κ × α)) (k k' : κ) :
    lookup (eraseKey m k) k' = if k = k' then .none else lookup m k' := by
  induction m with
  | nil => simp [eraseKey, lookup]
  | cons e m ih =>
    obtain ⟨k0, a0⟩ := e
    unfold eraseKey at ih ⊢
    simp only [List.filter_cons]
    by_cases h : k0 = k
    · subst h
      simp only [ne_eq, not_true, decide_false, Bool.false_eq_true, if_false, ih, lookup]
      split <;> rfl
    · simp only [ne_eq, h, not_false_eq_true, decide_true, if_true, lookup, ih]
      by_cases h2 : k0 = k'
      · subst h2; simp [Ne.symm h]
      · simp [h2]

theorem lookup_isSome_iff (m : List (κ × α)) (k : κ) :
    (lookup m k).isSome = true ↔ k ∈ m.map Prod.fst := by
  induction m with
  | nil => simp [lookup]
  | cons e m ih =>
    obtain ⟨k0, a0⟩ := e
    simp only [lookup]
    by_cases h : k0 = k
    · simp [h]
    · simp only [if_neg h, ih, List.map_cons, List.mem_cons]
      constructor
      · exact .inr
      · rintro (rfl | h2)
        · exact absurd rfl h
        · exact h2

theorem insertKey_keys (m : List (κ × α)) (k : κ) (a : α) :
    (insertKey m k a).map Prod.fst = if k ∈ m.map Prod.fst then m.map Prod.fst else m.map Prod.fst ++ [k] := by
  induction m with
  | nil => simp [insertKey]
  | cons e m ih =>
    obtain ⟨k0, a0⟩ := e
    simp only [insertKey]
    by_cases h : k0 = k
    · subst h; simp
    · simp only [if_neg h, List.map_cons, ih, List.mem_cons, Ne.symm h, false_or]
      split <;> simp

theorem eraseKey_keys (m : List (κ × α)) (k : κ) :
    (eraseKey m k).map Prod.fst = (m.map Prod.fst).filter (· ≠ k) := by
  unfold eraseKey
  rw [List.filter_map]
  rfl

theorem insertKey_nodup {m : List (κ × α)} (h : (m.map Prod.fst).Nodup) (k : κ) (a : α) :
    ((insertKey m k a).map Prod.fst).Nodup := by
  rw [insertKey_keys]
  split
  · exact h
  · next hk =>
    rw [List.nodup_append]
    refine ⟨h, by simp, ?_⟩
    intro x hx y hy
    simp at hy
    subst hy
    rintro rfl
    exact hk hx

theorem eraseKey_nodup {m : List (κ × α)} (h : (m.map Prod.fst).Nodup) (k : κ) :
    ((eraseKey m k).map Prod.fst).Nodup := by
  rw [eraseKey_keys]
  exact h.filter _

theorem eraseKey_length_le (m : List (κ × α)) (k : κ) : (eraseKey m k).length ≤ m.length :=
  List.length_filter_le _ _

theorem eraseKey_length_lt {m : List (κ × α)} {k : κ} (h : k ∈ m.map Prod.fst) :
    (eraseKey m k).length < m.length := by
  have h1 := eraseKey_length_le m k
  rcases Nat.lt_or_eq_of_le h1 with h2 | h2
  · exact h2
  · exfalso
    have : eraseKey m k = m := List.length_filter_eq_length_iff.mp h2 |> fun h => by
      unfold eraseKey; exact List.filter_eq_self.mpr h
    have hk := eraseKey_keys m k
    rw [this] at hk
    rw [hk] at h
    simp at h

theorem insertKey_length (m : List (κ × α)) (k : κ) (a : α) :
    (insertKey m k a).length = if k ∈ m.map Prod.fst then m.length else m.length + 1 := by
  have := congrArg List.length (insertKey_keys m k a)
  rw [List.length_map] at this
  rw [this]
  split <;> simp

theorem insertKey_insertKey (m : List (κ × α)) (k : κ) (a b : α) :
    insertKey (insertKey m k a) k b = insertKey m k b := by
  induction m with
  | nil => simp [insertKey]
  | cons e m ih =>
    obtain ⟨k0, a0⟩ := e
    simp only [insertKey]
    by_cases h : k0 = k
    · simp [h, insertKey]
    · simp [h, insertKey, ih]

end

/-! ### Eviction -/

theorem foldl_pick_mem {β : Type} (c : β → β → Bool) (e : β) (l : List β) :
    l.foldl (fun acc x => if c acc x then acc else x) e ∈ e :: l := by
  induction l generalizing e with
  | nil => simp
  | cons x l ih =>
    simp only [List.foldl_cons]
    have := ih (if c e x then e else x)
    rcases List.mem_cons.mp this with h | h
    · rw [h]; split <;> simp
    · exact List.mem_cons_of_mem _ (List.mem_cons_of_mem _ h)

theorem eldest_mem {m : List (Bytes × Assembly)} {e : Bytes × Assembly} (h : eldest m = some e) : e ∈ m := by
  cases m with
  | nil => simp [eldest] at h
  | cons x m =>
    simp only [eldest, Option.some.injEq] at h
    subst h
    have := foldl_pick_mem (fun (a b : Bytes × Assembly) => decide (a.2.tick < b.2.tick)) x m
    simpa using this

theorem evict_some {id : Bytes} {m : List (Bytes × Assembly)} (h : (lookup m id).isSome = true) (n : Nat) :
    evict id n m = m := by
  have h' : (lookup m id).isNone = false := by cases hl : lookup m id <;> simp_all
  cases n with
  | zero => rfl
  | succ n => simp [evict, h']

theorem evict_small {id : Bytes} {m : List (Bytes × Assembly)} (h : m.length < MAX_MESSAGES) (n : Nat) :
    evict id n m = m := by
  have h' : ¬ MAX_MESSAGES ≤ m.length := by omega
  cases n with
  | zero => rfl
  | succ n => simp [evict, h']

/-- After eviction: the entry is present, or there is room for one more. -/
theorem evict_room {id : Bytes} (n : Nat) (m : List (Bytes × Assembly)) (hn : m.length ≤ n) :
    (evict id n m).length ≤ m.length ∧
      ((lookup (evict id n m) id).isSome = true ∨ (evict id n m).length < MAX_MESSAGES) := by
  induction n generalizing m with
  | zero =>
    have : m.length = 0 := by omega
    simp [evict, this, MAX_MESSAGES]
  | succ n ih =>
    unfold evict
    split
    · next hc =>
      simp only [Bool.and_eq_true, decide_eq_true_eq] at hc
      cases he : eldest m with
      | none =>
        cases m with
        | nil => simp [MAX_MESSAGES] at hc
        | cons x m => simp [eldest] at he
      | some e =>
        have hlt := eraseKey_length_lt (List.mem_map_of_mem (f := Prod.fst) (eldest_mem he))
        have := ih (eraseKey m e.1) (by omega)
        exact ⟨by simp only; omega, this.2⟩
    · next hc =>
      refine ⟨Nat.le_refl _, ?_⟩
      simp only [Bool.and_eq_true, decide_eq_true_eq, not_and, Nat.not_le] at hc
      cases hl : lookup m id with
      | none => right; exact hc (by simp [hl])
      | some a => left; rfl

theorem evict_nodup {id : Bytes} (n : Nat) (m : List (Bytes × Assembly)) (h : (m.map Prod.fst).Nodup) :
    ((evict id n m).map Prod.fst).Nodup := by
  induction n generalizing m with
  | zero => exact h
  | succ n ih =>
    unfold evict
    split
    · cases eldest m with
      | none => exact h
      | some e => exact ih _ (eraseKey_nodup h _)
    · exact h

theorem evict_lookup_none {id : Bytes} (n : Nat) (m : List (Bytes × Assembly)) (h : lookup m id = .none) :
    lookup (evict id n m) id = .none := by
  induction n generalizing m with
  | zero => exact h
  | succ n ih =>
    unfold evict
    split
    · cases eldest m with
      | none => exact h
      | some e => exact ih _ (by simp [h])
    · exact h

theorem lookup_mem {κ α : Type} [DecidableEq κ] {m : List (κ × α)} {k : κ} {a : α}
    (h : lookup m k = some a) : (k, a) ∈ m := by
  induction m with
  | nil => simp [lookup] at h
  | cons e m ih =>
    obtain ⟨k0, a0⟩ := e
    simp only [lookup] at h
    split at h
    · next hk => simp at h; subst hk; subst h; simp
    · exact List.mem_cons_of_mem _ (ih h)

/-! ### The unordered assembler: one step -/

/-- The entry a fragment is filed in, before the tick is updated. -/
def Unordered.entry (a : Unordered) (f : Fragment) : Assembly :=
  (lookup (evict f.identifier a.store.length a.store) f.identifier).getD
    ⟨0, List.replicate f.total.toNat []⟩

theorem verifyFragment_iff (f : Fragment) : verifyFragment f = true ↔
    (f.version = .v3 → f.identifier = [0, 0, 0, 0]) ∧ 1 ≤ f.part.toNat ∧ f.part.toNat ≤ f.total.toNat ∧
      f.payload ≠ [] ∧ f.payload.length ≤ MAX_FRAGMENT_SIZE := by
  have e1 : f.part = 0 ↔ f.part.toNat = 0 := by rw [← UInt16.toNat_inj]; rfl
  have e2 : f.total = 0 ↔ f.total.toNat = 0 := by rw [← UInt16.toNat_inj]; rfl
  unfold verifyFragment
  simp only [gt_iff_lt, Bool.not_eq_true', Bool.or_eq_false_iff, Bool.and_eq_false_iff,
    decide_eq_false_iff_not, bne_eq_false_iff_eq, beq_eq_false_iff_ne, ne_eq, UInt16.lt_iff_toNat_lt,
    e1, e2]
  constructor
  · rintro ⟨⟨⟨⟨⟨h1, h2⟩, h3⟩, h4⟩, h5⟩, h6⟩
    refine ⟨fun hv => ?_, by omega, by omega, h5, by omega⟩
    rcases h1 with h1 | h1
    · exact absurd hv h1
    · exact h1
  · rintro ⟨h1, h2, h3, h4, h5⟩
    refine ⟨⟨⟨⟨⟨?_, by omega⟩, by omega⟩, by omega⟩, h4⟩, by omega⟩
    by_cases hv : f.version = .v3
    · exact .inr (h1 hv)
    · exact .inl hv

/-- The store after any call has unique keys and at most `MAX_MESSAGES` entries. -/
theorem Unordered.assemble_inv (a : Unordered) (f : Fragment) (hn : (a.store.map Prod.fst).Nodup)
    (hl : a.store.length ≤ MAX_MESSAGES) :
    ((a.assemble f).2.store.map Prod.fst).Nodup ∧ (a.assemble f).2.store.length ≤ MAX_MESSAGES := by
  obtain ⟨r1, r2⟩ := evict_room (id := f.identifier) a.store.length a.store (Nat.le_refl _)
  have r3 := evict_nodup (id := f.identifier) a.store.length a.store hn
  have ins : ∀ e, ((insertKey (evict f.identifier a.store.length a.store) f.identifier e).map Prod.fst).Nodup ∧
      (insertKey (evict f.identifier a.store.length a.store) f.identifier e).length ≤ MAX_MESSAGES := by
    intro e
    refine ⟨insertKey_nodup r3 _ _, ?_⟩
    rw [insertKey_length]
    split
    · omega
    · next h =>
      rcases r2 with h2 | h2
      · rw [lookup_isSome_iff] at h2; exact absurd h2 h
      · omega
  unfold Unordered.assemble
  split
  · exact ⟨hn, hl⟩
  simp only
  split
  · exact ⟨r3, by simp only; omega⟩
  split
  · exact ins _
  split
  · exact ins _
  split
  · exact ins _
  split
  · exact ins _
  split
  · exact ⟨eraseKey_nodup (insertKey_nodup (ins _).1 _ _) _, Nat.le_trans (eraseKey_length_le _ _)
      (by rw [insertKey_insertKey]; exact (ins _).2)⟩
  split
  · rw [insertKey_insertKey]; exact ins _
  · exact ⟨eraseKey_nodup (insertKey_nodup (ins _).1 _ _) _, Nat.le_trans (eraseKey_length_le _ _)
      (by rw [insertKey_insertKey]; exact (ins _).2)⟩

/-- Fragments of another message leave the entry of `id` alone, unless room has to be made. -/
theorem Unordered.assemble_frame (a : Unordered) (f : Fragment) (id : Bytes) (hid : f.identifier ≠ id)
    (hroom : (lookup a.store f.identifier).isSome = true ∨ a.store.length < MAX_MESSAGES) :
    lookup (a.assemble f).2.store id = lookup a.store id := by
  have he : evict f.identifier a.store.length a.store = a.store := by
    rcases hroom with h | h
    · exact evict_some h _
    · exact evict_small h _
  unfold Unordered.assemble
  rw [he]
  simp only
  split <;> try rfl
  split <;> try rfl
  split
  · simp [hid]
  split
  · simp [hid]
  split
  · simp [hid]
  split
  · simp [hid]
  split
  · simp [hid]
  split <;> simp [hid]

/-- Keys after a step: at most the identifier of the fragment is new. -/
theorem Unordered.assemble_keys (a : Unordered) (f : Fragment) (ids : List Bytes)
    (hk : ∀ k ∈ a.store.map Prod.fst, k ∈ ids) (hf : f.identifier ∈ ids)
    (hroom : (lookup a.store f.identifier).isSome = true ∨ a.store.length < MAX_MESSAGES) :
    ∀ k ∈ (a.assemble f).2.store.map Prod.fst, k ∈ ids := by
  intro k hkm
  rw [← lookup_isSome_iff] at hkm
  by_cases h : f.identifier = k
  · exact h ▸ hf
  · rw [Unordered.assemble_frame a f k h hroom, lookup_isSome_iff] at hkm
    exact hk k hkm

theorem Unordered.assemble_tick (a : Unordered) (f : Fragment) (h : a.tick.toNat + 1 < 2 ^ 32) :
    (a.assemble f).2.tick.toNat ≤ a.tick.toNat + 1 := by
  have h1 : (a.tick + 1).toNat = a.tick.toNat + 1 := by
    rw [UInt32.toNat_add]
    exact Nat.mod_eq_of_lt h
  unfold Unordered.assemble
  simp only
  repeat' split
  all_goals first
    | exact Nat.le_of_eq h1
    | exact Nat.le_succ _

/-- What a step does for a fragment whose entry holds `parts`, when nothing overflows. -/
theorem Unordered.assemble_own (a : Unordered) (f : Fragment) (parts : List Bytes)
    (hv : verifyFragment f = true) (hl : a.store.length ≤ MAX_MESSAGES)
    (hroom : (lookup a.store f.identifier).isSome = true ∨ a.store.length < MAX_MESSAGES)
    (htick : a.tick.toNat + 1 < 2 ^ 32)
    (hparts : ((lookup a.store f.identifier).map (·.parts)).getD (List.replicate f.total.toNat []) = parts)
    (hlen : parts.length = f.total.toNat)
    (hempty : parts[f.part.toNat - 1]? = some []) 
    (hsize : ((parts.set (f.part.toNat - 1) f.payload).map List.length).sum ≤ MAX_MESSAGE_SIZE) :
    (if (parts.set (f.part.toNat - 1) f.payload).any (· == []) then
      (a.assemble f).1 = .err .incompleteResult ∧
        ∃ t, lookup (a.assemble f).2.store f.identifier = some ⟨t, parts.set (f.part.toNat - 1) f.payload⟩
     else
      (a.assemble f).1 = .ok (parts.set (f.part.toNat - 1) f.payload).flatten ∧
        lookup (a.assemble f).2.store f.identifier = .none) := by
  have he : evict f.identifier a.store.length a.store = a.store := by
    rcases hroom with h | h
    · exact evict_some h _
    · exact evict_small h _
  have hgt : a.tick ≠ 0xffffffff := by
    intro hc
    rw [hc] at htick
    simp at htick
  have hp : ((lookup a.store f.identifier).getD ⟨0, List.replicate f.total.toNat []⟩).parts = parts := by
    rw [← hparts]
    cases lookup a.store f.identifier <;> rfl
  have hns : ¬ MAX_MESSAGE_SIZE < ((parts.set (f.part.toNat - 1) f.payload).map List.length).sum := by omega
  have hnl : ¬ MAX_MESSAGES < a.store.length := by omega
  unfold Unordered.assemble
  rw [he]
  simp only [hv, Bool.not_true, Bool.false_eq_true, if_false, hnl, hgt, hp, hlen, ne_eq, not_true,
    hempty, gt_iff_lt, hns, decide_false, Bool.false_and]
  split
  · next hany => exact ⟨rfl, a.tick, by simp⟩
  · exact ⟨rfl, by simp⟩

/-! ### Slicing -/

theorem slices_flatten {k : Nat} (hk : 0 < k) (fuel : Nat) (s : Bytes) (hf : s.length ≤ fuel) :
    (slices k fuel s).flatten = s := by
  induction fuel generalizing s with
  | zero =>
    have : s = [] := List.length_eq_zero_iff.mp (by omega)
    subst this; rfl
  | succ n ih =>
    unfold slices
    split
    · next h => subst h; rfl
    · next h =>
      have hpos : 0 < s.length := List.length_pos_iff.mpr h
      rw [List.flatten_cons, ih (s.drop k) (by simp; omega), List.take_append_drop]

theorem slices_mem {k : Nat} (hk : 0 < k) (fuel : Nat) (s : Bytes) :
    ∀ p ∈ slices k fuel s, p ≠ [] ∧ p.length ≤ k ∧ ∀ b ∈ p, b ∈ s := by
  induction fuel generalizing s with
  | zero => simp [slices]
  | succ n ih =>
    unfold slices
    split
    · simp
    · next h =>
      intro p hp
      have hpos : 0 < s.length := List.length_pos_iff.mpr h
      rcases List.mem_cons.mp hp with rfl | hp
      · refine ⟨?_, by simp; omega, fun b hb => List.mem_of_mem_take hb⟩
        intro hc
        rw [List.take_eq_nil_iff] at hc
        rcases hc with hc | hc
        · omega
        · exact h hc
      · obtain ⟨h1, h2, h3⟩ := ih _ p hp
        exact ⟨h1, h2, fun b hb => List.mem_of_mem_drop (h3 b hb)⟩

theorem slices_length {k : Nat} (hk : 0 < k) (fuel : Nat) (s : Bytes) (hf : s.length ≤ fuel) :
    (slices k fuel s).length = s.length / k + (if s.length % k = 0 then 0 else 1) := by
  induction fuel generalizing s with
  | zero =>
    have : s.length = 0 := by omega
    simp [slices, this]
  | succ n ih =>
    unfold slices
    split
    · next h => subst h; simp
    · next h =>
      have hpos : 0 < s.length := List.length_pos_iff.mpr h
      rw [List.length_cons, ih (s.drop k) (by simp; omega), List.length_drop]
      by_cases hle : k ≤ s.length
      · have hd : s.length / k = (s.length - k) / k + 1 := by
          rw [Nat.div_eq_sub_div hk hle]
        have hm : s.length % k = (s.length - k) % k := Nat.mod_eq_sub_mod hle
        rw [hd, hm]
        omega
      · have h0 : s.length - k = 0 := by omega
        have h1 : s.length / k = 0 := Nat.div_eq_of_lt (by omega)
        have h2 : s.length % k = s.length := Nat.mod_eq_of_lt (by omega)
        rw [h0, h1, h2]
        simp [h]

theorem numberFragments_length (v : Version) (id : Bytes) (s r : UInt32) (t i : Nat) (ps : List Bytes) :
    (numberFragments v id s r t i ps).length = ps.length := by
  induction ps generalizing i with
  | nil => rfl
  | cons p ps ih => simp [numberFragments, ih]

theorem numberFragments_getElem? (v : Version) (id : Bytes) (s r : UInt32) (t i : Nat) (ps : List Bytes)
    (j : Nat) : (numberFragments v id s r t i ps)[j]? =
      (ps[j]?).map fun p => ⟨v, id, s, r, UInt16.ofNat (i + j + 1), UInt16.ofNat t, p⟩ := by
  induction ps generalizing i j with
  | nil => simp [numberFragments]
  | cons p ps ih =>
    cases j with
    | zero => simp [numberFragments]
    | succ j =>
      simp only [numberFragments, List.getElem?_cons_succ, ih]
      congr 1
      funext p
      have : i + 1 + j + 1 = i + (j + 1) + 1 := by omega
      rw [this]

end Otrr
