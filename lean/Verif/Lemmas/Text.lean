import Verif.Lemmas.Profile
import Verif.Lemmas.Fragment
/-! Classification of unencoded text. -/

namespace Otrr
open Spec

theorem mark_eq : [0x3f, 0x4f, 0x54, 0x52] = OTR_MARK := rfl
theorem tag_eq : WHITESPACE_PREFIX = TAG_MARK := rfl

theorem queryAt_some {nd : Nat → Bool} {s : Bytes} {x : Option Bytes} (h : queryAt nd s = some x) :
    ∃ r, s = OTR_MARK ++ r ∧ (x = .none → ∃ r', r = 0x3f :: r') := by
  unfold queryAt at h
  split at h
  · cases h
  · rename_i r hr
    rw [lit_eq_some] at hr
    refine ⟨r, hr, ?_⟩
    split at h
    · rename_i r1 h1
      rw [lit_eq_some] at h1
      exact fun _ => ⟨r1, h1⟩
    · intro hx
      subst hx
      cases hq : queryGroup nd r <;> rw [hq] at h <;> simp at h

theorem Occurs.of_suffix {p s t : Bytes} (h : t <:+ s) {r : Bytes} (ht : t = p ++ r) : Occurs p s := by
  obtain ⟨a, rfl⟩ := h
  exact ⟨a, r, by rw [ht, List.append_assoc]⟩

theorem firstMatch_query_none {nd : Nat → Bool} {s : Bytes} (h : ¬ Occurs OTR_MARK s) :
    firstMatch (queryAt nd) s = .none := by
  apply firstMatch_none
  intro t ht
  cases hq : queryAt nd t with
  | none => rfl
  | some x =>
    obtain ⟨r, hr, _⟩ := queryAt_some hq
    exact absurd (Occurs.of_suffix ht hr) h

theorem wsAt_none {s : Bytes} (h : ∀ r, s ≠ TAG_MARK ++ r) : wsAt s = .none := by
  unfold wsAt
  cases hl : lit WHITESPACE_PREFIX s with
  | none => rfl
  | some r => exact absurd (lit_eq_some.mp hl) (h r)

theorem firstMatch_ws_none {s : Bytes} (h : ¬ Occurs TAG_MARK s) : firstMatch wsAt s = .none := by
  apply firstMatch_none
  intro t ht
  exact wsAt_none fun r hr => h (Occurs.of_suffix ht hr)

theorem error_occurs {s : Bytes} (h : OTR_ERROR_PREFIX.isPrefixOf s = true) : Occurs OTR_MARK s := by
  rw [List.isPrefixOf_iff_prefix] at h
  obtain ⟨r, rfl⟩ := h
  exact ⟨[], [0x20, 0x45, 0x72, 0x72, 0x6f, 0x72, 0x3a] ++ r, rfl⟩

theorem encoded_occurs {s : Bytes} (h : OTR_ENCODED_PREFIX.isPrefixOf s = true) : Occurs OTR_MARK s := by
  rw [List.isPrefixOf_iff_prefix] at h
  obtain ⟨r, rfl⟩ := h
  exact ⟨[], [0x3a] ++ r, rfl⟩

theorem isBlank_iff (b : UInt8) : isBlank b = true ↔ b = 32 ∨ b = 9 := by
  simp [isBlank]

theorem blockTest_iff (s : Bytes) :
    (8 ≤ s.length && (s.take 8).all isBlank) = true ↔ ∃ blk r, s = blk ++ r ∧ TagBlock blk := by
  simp only [Bool.and_eq_true, decide_eq_true_eq, List.all_eq_true, isBlank_iff, TagBlock]
  constructor
  · rintro ⟨h1, h2⟩
    exact ⟨s.take 8, s.drop 8, (List.take_append_drop 8 s).symm, by simp; omega, h2⟩
  · rintro ⟨blk, r, rfl, h1, h2⟩
    refine ⟨by simp; omega, ?_⟩
    rw [List.take_append_of_le_length (by omega), List.take_of_length_le (by omega)]
    exact h2

theorem wsBlocks_isSome (n : Nat) (l : Bytes) (s : Bytes) : (wsBlocks n (some l) s).1.isSome = true := by
  induction n generalizing l s with
  | zero => rfl
  | succ n ih =>
    simp only [wsBlocks]
    split
    · exact ih _ _
    · rfl

theorem wsBlocks_none {s : Bytes} {r : Bytes} (h : wsBlocks s.length .none s = (.none, r)) :
    ¬ ∃ blk r, s = blk ++ r ∧ TagBlock blk := by
  intro hb
  have hb' := (blockTest_iff s).mpr hb
  have hl : 8 ≤ s.length := by
    simp only [Bool.and_eq_true, decide_eq_true_eq] at hb'
    exact hb'.1
  obtain ⟨n, hn⟩ : ∃ n, s.length = n + 1 := ⟨s.length - 1, by omega⟩
  rw [hn, wsBlocks, if_pos hb'] at h
  have := wsBlocks_isSome n (s.take 8) (s.drop 8)
  rw [h] at this
  cases this

theorem wsBlocks_flatten {blocks : List Bytes} {b : Bytes} (h : ∀ x ∈ blocks, TagBlock x)
    (hb : ¬ ∃ blk r, b = blk ++ r ∧ TagBlock blk) (n : Nat) (hn : blocks.length ≤ n) (last : Option Bytes) :
    wsBlocks n last (blocks.flatten ++ b) = (blocks.getLast?.or last, b) := by
  induction blocks generalizing n last with
  | nil =>
    simp only [List.flatten_nil, List.nil_append, List.getLast?_nil, Option.none_or]
    cases n with
    | zero => rfl
    | succ n => rw [wsBlocks, if_neg (by rw [blockTest_iff]; exact hb)]
  | cons x xs ih =>
    simp only [List.length_cons] at hn
    obtain ⟨n, rfl⟩ : ∃ k, n = k + 1 := ⟨n - 1, by omega⟩
    have hx := h x (by simp)
    have hl := hx.1
    rw [List.flatten_cons, List.append_assoc, wsBlocks, if_pos ((blockTest_iff _).mpr ⟨x, _, rfl, hx⟩),
      List.take_append_of_le_length (by omega), List.take_of_length_le (by omega),
      List.drop_append_of_le_length (by omega), List.drop_of_length_le (by omega), List.nil_append,
      ih (fun y hy => h y (by simp [hy])) n (by omega)]
    cases xs with
    | nil => rfl
    | cons y ys => rw [List.getLast?_cons_cons, List.getLast?_cons]; rfl

theorem wsRemove_id {s : Bytes} (h : ¬ Occurs TAG_MARK s) (n : Nat) : wsRemove n s = s := by
  induction n generalizing s with
  | zero => rfl
  | succ n ih =>
    cases s with
    | nil => rfl
    | cons b r =>
      have h1 : wsAt (b :: r) = .none := wsAt_none fun x hx => h ⟨[], x, hx⟩
      simp only [wsRemove, h1]
      rw [ih]
      rintro ⟨x, y, rfl⟩
      exact h ⟨b :: x, y, rfl⟩

theorem wsRemove_prefix {a t : Bytes} (h : ∀ x y, a ++ t = x ++ TAG_MARK ++ y → a.length ≤ x.length) (n : Nat) :
    wsRemove (a.length + n) (a ++ t) = a ++ wsRemove n t := by
  induction a with
  | nil => simp
  | cons b r ih =>
    have h1 : wsAt (b :: (r ++ t)) = .none := by
      apply wsAt_none
      intro x hx
      have := h [] x hx
      simp at this
    have e : (b :: r).length + n = (r.length + n) + 1 := by simp only [List.length_cons]; omega
    rw [e]
    simp only [List.cons_append, wsRemove, h1]
    rw [ih]
    intro x y hxy
    have := h (b :: x) y (by simp only [List.cons_append, hxy])
    simp only [List.length_cons] at this
    omega

theorem firstMatch_ws_prefix {a t : Bytes} (h : ∀ x y, a ++ t = x ++ TAG_MARK ++ y → a.length ≤ x.length) :
    firstMatch wsAt (a ++ t) = firstMatch wsAt t := by
  induction a with
  | nil => rfl
  | cons b r ih =>
    have h1 : wsAt (b :: (r ++ t)) = .none := by
      apply wsAt_none
      intro x hx
      have := h [] x hx
      simp at this
    simp only [List.cons_append, firstMatch, h1]
    apply ih
    intro x y hxy
    have := h (b :: x) y (by simp only [List.cons_append, hxy])
    simp only [List.length_cons] at this
    omega

theorem flatten_blocks_length {blocks : List Bytes} (h : ∀ x ∈ blocks, TagBlock x) :
    blocks.length ≤ blocks.flatten.length := by
  induction blocks with
  | nil => simp
  | cons x xs ih =>
    have h1 := (h x (by simp)).1
    have h2 := ih (fun y hy => h y (by simp [hy]))
    simp only [List.length_cons, List.flatten_cons, List.length_append]
    omega

theorem wsAt_tag {blocks : List Bytes} {b : Bytes} (h : ∀ x ∈ blocks, TagBlock x)
    (hb : ¬ ∃ blk r, b = blk ++ r ∧ TagBlock blk) :
    wsAt (TAG_MARK ++ (blocks.flatten ++ b)) = some (blocks.getLast?, b) := by
  unfold wsAt
  rw [tag_eq, lit_self, Option.map_some, wsBlocks_flatten h hb _ _ .none, Option.or_none]
  have := flatten_blocks_length h
  rw [List.length_append]
  omega

theorem parse_tagged (E : Env) {a b : Bytes} {blocks : List Bytes} {last : Bytes} (hlast : blocks.getLast? = some last)
    (h : ∀ x ∈ blocks, TagBlock x) (hb : ¬ ∃ blk r, b = blk ++ r ∧ TagBlock blk)
    (hq : ¬ Occurs OTR_MARK (a ++ TAG_MARK ++ blocks.flatten ++ b))
    (hfirst : ∀ x y, a ++ TAG_MARK ++ blocks.flatten ++ b = x ++ TAG_MARK ++ y → a.length ≤ x.length)
    (hrest : ¬ Occurs TAG_MARK b) :
    parse E (a ++ TAG_MARK ++ blocks.flatten ++ b) = .ok (.tagged (parseTag last) (a ++ b)) := by
  have e : a ++ TAG_MARK ++ blocks.flatten ++ b = a ++ (TAG_MARK ++ (blocks.flatten ++ b)) := by
    simp only [List.append_assoc]
  rw [e] at hq hfirst ⊢
  unfold parse
  have h1 : ¬ (OTR_ENCODED_PREFIX.isPrefixOf (a ++ (TAG_MARK ++ (blocks.flatten ++ b))) = true) :=
    fun hc => hq (encoded_occurs hc)
  have h2 : ¬ (OTR_ERROR_PREFIX.isPrefixOf (a ++ (TAG_MARK ++ (blocks.flatten ++ b))) = true) :=
    fun hc => hq (error_occurs hc)
  have hws := wsAt_tag h hb
  have hlen : ∃ k, (a ++ (TAG_MARK ++ (blocks.flatten ++ b))).length = a.length + (k + 1) :=
    ⟨(TAG_MARK ++ (blocks.flatten ++ b)).length - 1, by
      have : TAG_MARK.length = 16 := rfl
      simp only [List.length_append]; omega⟩
  obtain ⟨k, hk⟩ := hlen
  have hrem : wsRemove (a ++ (TAG_MARK ++ (blocks.flatten ++ b))).length (a ++ (TAG_MARK ++ (blocks.flatten ++ b)))
      = a ++ b := by
    rw [hk, wsRemove_prefix hfirst]
    congr 1
    have : ∀ s, wsAt s = some (blocks.getLast?, b) → s ≠ [] → wsRemove (k + 1) s = wsRemove k b := by
      intro s hs hne
      cases s with
      | nil => exact absurd rfl hne
      | cons c r => simp only [wsRemove, hs]
    rw [this _ hws (by simp [TAG_MARK]), wsRemove_id hrest]
  rw [if_neg (by simp [h1])]
  unfold parsePlain
  rw [if_neg h2, firstMatch_query_none hq]
  simp only
  rw [firstMatch_ws_prefix hfirst, firstMatch_head hws, hlast]
  simp only [hrem, parseWhitespaceTags]

end Otrr
