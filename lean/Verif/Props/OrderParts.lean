import Verif.Props.Order
import Verif.Lemmas.Assembly
/-! C116 for the messages of which only some fragments arrived. -/

namespace Otrr
open Spec

theorem perm_of_lookups {κ α : Type} [DecidableEq κ] {m m' : List (κ × α)} (h : (m.map Prod.fst).Nodup) (h' : (m'.map Prod.fst).Nodup)
    (hl : ∀ k, lookup m' k = lookup m k) : m.Perm m' := by
  refine (List.perm_ext_iff_of_nodup (List.Nodup.of_map _ h) (List.Nodup.of_map _ h')).mpr ?_
  rintro ⟨k, i⟩
  constructor
  · intro hm
    exact lookup_mem ((hl k).trans (lookup_of_mem h hm))
  · intro hm
    exact lookup_mem ((hl k).symm.trans (lookup_of_mem h' hm))

theorem lookups_of_perm {κ α : Type} [DecidableEq κ] {m m' : List (κ × α)} (h : (m.map Prod.fst).Nodup) (hp : m.Perm m') (k : κ) :
    lookup m' k = lookup m k := by
  have h' : (m'.map Prod.fst).Nodup := (hp.map _).nodup_iff.mp h
  cases hl : lookup m k with
  | some i => exact lookup_of_mem h' (hp.mem_iff.mp (lookup_mem hl))
  | none =>
    cases hl' : lookup m' k with
    | none => rfl
    | some i => rw [lookup_of_mem h (hp.mem_iff.mpr (lookup_mem hl'))] at hl; cases hl

theorem insertKey_perm {κ α : Type} [DecidableEq κ] {m m' : List (κ × α)} (h : (m.map Prod.fst).Nodup) (hp : m.Perm m') (k : κ) (a : α) :
    (insertKey m k a).Perm (insertKey m' k a) :=
  perm_of_lookups (insertKey_nodup h k a) (insertKey_nodup ((hp.map _).nodup_iff.mp h) k a) fun j => by
    simp only [lookup_insertKey, lookups_of_perm h hp]

theorem eraseKey_perm {κ α : Type} [DecidableEq κ] {m m' : List (κ × α)} (hp : m.Perm m') (k : κ) :
    (eraseKey m k).Perm (eraseKey m' k) := hp.filter _

/-- No two unfinished messages are equally old. -/
def Ages (m : List (Bytes × Assembly)) : Prop := ∀ k k' x y, lookup m k = some x → lookup m k' = some y → x.tick = y.tick → k = k'

theorem eldest_min {m : List (Bytes × Assembly)} {e : Bytes × Assembly} (h : eldest m = some e) : ∀ x ∈ m, e.2.tick ≤ x.2.tick := by
  have key : ∀ (l : List (Bytes × Assembly)) (a : Bytes × Assembly),
      (l.foldl (fun acc e => if acc.2.tick < e.2.tick then acc else e) a).2.tick ≤ a.2.tick ∧
      ∀ x ∈ l, (l.foldl (fun acc e => if acc.2.tick < e.2.tick then acc else e) a).2.tick ≤ x.2.tick := by
    intro l
    induction l with
    | nil => intro a; exact ⟨UInt32.le_refl _, nofun⟩
    | cons y l ih =>
      intro a
      simp only [List.foldl_cons]
      by_cases hc : a.2.tick < y.2.tick
      · simp only [hc, if_true]
        refine ⟨(ih a).1, fun x hx => ?_⟩
        rcases List.mem_cons.mp hx with rfl | hx
        · exact UInt32.le_trans (ih a).1 (UInt32.le_of_lt hc)
        · exact (ih a).2 x hx
      · simp only [hc, if_false]
        refine ⟨UInt32.le_trans (ih y).1 (UInt32.not_lt.mp hc), fun x hx => ?_⟩
        rcases List.mem_cons.mp hx with rfl | hx
        · exact (ih x).1
        · exact (ih y).2 x hx
  cases m with
  | nil => simp [eldest] at h
  | cons a l =>
    simp only [eldest, Option.some.injEq] at h
    subst h
    intro x hx
    rcases List.mem_cons.mp hx with rfl | hx
    · exact (key l x).1
    · exact (key l a).2 x hx

theorem eldest_perm {m m' : List (Bytes × Assembly)} (h : (m.map Prod.fst).Nodup) (ha : Ages m) (hp : m.Perm m') : eldest m' = eldest m := by
  cases he : eldest m with
  | none =>
    cases m with
    | nil => simp at hp; subst hp; rfl
    | cons _ _ => simp [eldest] at he
  | some e =>
    cases he' : eldest m' with
    | none =>
      cases m' with
      | nil => simp at hp; subst hp; simp [eldest] at he
      | cons _ _ => simp [eldest] at he'
    | some e' =>
      have h1 := eldest_mem he
      have h2 := hp.mem_iff.mpr (eldest_mem he')
      have ht : e.2.tick = e'.2.tick := UInt32.le_antisymm (eldest_min he _ h2) (eldest_min he' _ (hp.mem_iff.mp h1))
      obtain ⟨k, x⟩ := e
      obtain ⟨k', y⟩ := e'
      have l1 := lookup_of_mem h h1
      have l2 := lookup_of_mem h h2
      have hk := ha k k' x y l1 l2 ht
      subst hk
      rw [l1] at l2
      cases l2
      rfl

theorem Ages.erase {m : List (Bytes × Assembly)} (ha : Ages m) (k : Bytes) : Ages (eraseKey m k) := by
  intro j j' x y h1 h2 h3
  simp only [lookup_eraseKey] at h1 h2
  split at h1 <;> [cases h1; skip]
  split at h2 <;> [cases h2; skip]
  exact ha j j' x y h1 h2 h3

theorem evict_sub {id : Bytes} (n : Nat) (m : List (Bytes × Assembly)) {k : Bytes} {x : Assembly} (h : lookup (evict id n m) k = some x) :
    lookup m k = some x := by
  induction n generalizing m with
  | zero => exact h
  | succ n ih =>
    unfold evict at h
    split at h
    · cases he : eldest m with
      | none => rw [he] at h; exact h
      | some e =>
        rw [he] at h
        have := ih _ h
        simp only [lookup_eraseKey] at this
        split at this
        · cases this
        · exact this
    · exact h

theorem evict_perm {id : Bytes} (n : Nat) {m m' : List (Bytes × Assembly)} (h : (m.map Prod.fst).Nodup) (ha : Ages m) (hp : m.Perm m') :
    (evict id n m).Perm (evict id n m') := by
  induction n generalizing m m' with
  | zero => exact hp
  | succ n ih =>
    unfold evict
    rw [lookups_of_perm h hp, ← hp.length_eq, eldest_perm h ha hp]
    split
    · cases eldest m with
      | none => exact hp
      | some e => exact ih (eraseKey_nodup h _) (ha.erase _) (eraseKey_perm hp _)
    · exact hp

/-- What holds of the unfinished messages. -/
structure Unordered.Aged (a : Unordered) : Prop where
  nodup : (a.store.map Prod.fst).Nodup
  ages : Ages a.store
  past : ∀ k x, lookup a.store k = some x → x.tick < a.tick

theorem aged_insert {m : List (Bytes × Assembly)} {t : UInt32} (ht : t ≠ 0xffffffff) (hn : (m.map Prod.fst).Nodup) (ha : Ages m)
    (hp : ∀ k x, lookup m k = some x → x.tick < t) (k : Bytes) (e : Assembly) (he : e.tick = t) : Unordered.Aged ⟨t + 1, insertKey m k e⟩ := by
  have hlt : ∀ x : UInt32, x ≤ t → x < t + 1 := by
    intro x hx
    rw [UInt32.lt_iff_toNat_lt]
    rw [UInt32.le_iff_toNat_le] at hx
    have h1 : t.toNat ≠ 4294967295 := fun h => ht (UInt32.toNat_inj.mp h)
    have h2 := t.toNat_lt
    rw [UInt32.toNat_add]
    simp
    omega
  refine ⟨insertKey_nodup hn k e, ?_, ?_⟩
  · intro j j' x y h1 h2 h3
    simp only [lookup_insertKey] at h1 h2
    split at h1
    · cases h1
      split at h2
      · subst_vars; rfl
      · have := hp _ _ h2
        rw [← h3, he] at this
        exact absurd this (UInt32.lt_irrefl _)
    · split at h2
      · cases h2
        have := hp _ _ h1
        rw [h3, he] at this
        exact absurd this (UInt32.lt_irrefl _)
      · exact ha j j' x y h1 h2 h3
  · intro j x h
    simp only [lookup_insertKey] at h
    split at h
    · cases h
      rw [he]
      exact hlt _ (UInt32.le_refl _)
    · exact hlt _ (UInt32.le_of_lt (hp j x h))

theorem aged_erase {t : UInt32} {m : List (Bytes × Assembly)} (h : Unordered.Aged ⟨t, m⟩) (k : Bytes) : Unordered.Aged ⟨t, eraseKey m k⟩ := by
  refine ⟨eraseKey_nodup h.nodup k, h.ages.erase k, ?_⟩
  intro j x hl
  simp only [lookup_eraseKey] at hl
  split at hl
  · cases hl
  · exact h.past j x hl

theorem assemble_aged {a : Unordered} (ha : a.Aged) (f : Fragment) (hp : (a.assemble f).1 ≠ .panic) : (a.assemble f).2.Aged := by
  have hn := evict_nodup (id := f.identifier) a.store.length a.store ha.nodup
  have hs : ∀ k x, lookup (evict f.identifier a.store.length a.store) k = some x → x.tick < a.tick := fun k x h => ha.past k x (evict_sub _ _ h)
  have hg : Ages (evict f.identifier a.store.length a.store) := fun k k' x y h1 h2 h3 => ha.ages k k' x y (evict_sub _ _ h1) (evict_sub _ _ h2) h3
  revert hp
  unfold Unordered.assemble
  generalize evict f.identifier a.store.length a.store = m at hn hs hg
  split
  · exact fun _ => ha
  · simp only
    split
    · exact fun h => absurd rfl h
    · split
      · exact fun h => absurd rfl h
      · rename_i ht
        have base := fun e he => aged_insert ht hn hg hs f.identifier e he
        have twice : ∀ e e', e'.tick = a.tick → Unordered.Aged ⟨a.tick + 1, insertKey (insertKey m f.identifier e) f.identifier e'⟩ := by
          intro e e' he
          rw [insertKey_insertKey]
          exact base e' he
        split
        · exact fun _ => base _ rfl
        · split
          · exact fun h => absurd rfl h
          · split
            · exact fun _ => base _ rfl
            · split
              · exact fun _ => aged_erase (twice _ _ rfl) _
              · split
                · exact fun _ => twice _ _ rfl
                · exact fun _ => aged_erase (twice _ _ rfl) _

theorem assemble_perm {a b : Unordered} (ha : a.Aged) (hr : ReorderedParts a b) (f : Fragment) :
    (b.assemble f).1 = (a.assemble f).1 ∧ ReorderedParts (a.assemble f).2 (b.assemble f).2 := by
  have hn := evict_nodup (id := f.identifier) a.store.length a.store ha.nodup
  have hp := evict_perm (id := f.identifier) a.store.length ha.nodup ha.ages hr.1
  have hlen : b.store.length = a.store.length := hr.1.length_eq.symm
  unfold Unordered.assemble
  rw [hlen, ← hr.2]
  generalize evict f.identifier a.store.length a.store = m at hn hp
  generalize evict f.identifier a.store.length b.store = m' at hp
  have hl := lookups_of_perm hn hp
  have hm := hp.length_eq
  simp only [← hm, hl]
  have i1 : ∀ e, (insertKey m f.identifier e).Perm (insertKey m' f.identifier e) := insertKey_perm hn hp _
  have i2 : ∀ e e', (insertKey (insertKey m f.identifier e) f.identifier e').Perm (insertKey (insertKey m' f.identifier e) f.identifier e') := by
    intro e e'
    rw [insertKey_insertKey, insertKey_insertKey]
    exact i1 e'
  split
  · exact ⟨rfl, hr.1, hr.2⟩
  · split
    · exact ⟨rfl, hp, rfl⟩
    · split
      · exact ⟨rfl, i1 _, rfl⟩
      · split
        · exact ⟨rfl, i1 _, rfl⟩
        · split
          · exact ⟨rfl, i1 _, rfl⟩
          · split
            · exact ⟨rfl, i1 _, rfl⟩
            · split
              · exact ⟨rfl, eraseKey_perm (i2 _ _) _, rfl⟩
              · split
                · exact ⟨rfl, i2 _ _, rfl⟩
                · exact ⟨rfl, eraseKey_perm (i2 _ _) _, rfl⟩

namespace Props

theorem collects_aged {h : List (Fragment × AsmRes)} {a : Unordered} (hh : CollectsInOrder h a) : a.Aged := by
  induction hh with
  | new => exact ⟨by simp [Unordered.new], fun _ _ _ _ h => by simp [Unordered.new, lookup] at h, fun _ _ h => by simp [Unordered.new, lookup] at h⟩
  | step _ hp ih => exact assemble_aged ih _ hp

/-- C116: the order in which unfinished messages are kept, also when the eldest is dropped, does not matter for the results of collecting fragments. -/
theorem C116_parts {h : List (Fragment × AsmRes)} {a : Unordered} (hh : Collects h a) : ∃ b, CollectsInOrder h b ∧ ReorderedParts a b := by
  induction hh with
  | new => exact ⟨_, .new, .refl _, rfl⟩
  | reorder _ hr ih =>
    obtain ⟨b, h1, h2⟩ := ih
    exact ⟨b, h1, hr.1.symm.trans h2.1, hr.2.symm.trans h2.2⟩
  | @step h a f _ hp ih =>
    obtain ⟨b, h1, h2⟩ := ih
    obtain ⟨r1, r2⟩ := assemble_perm (collects_aged h1) ⟨h2.1.symm, h2.2.symm⟩ f
    refine ⟨(b.assemble f).2, ?_, r2.1.symm, r2.2.symm⟩
    rw [r1]
    exact .step h1 (by rw [← r1]; exact hp)

/-- Two unfinished messages in either order. -/
example : ∃ h a b, Collects h a ∧ Collects h b ∧ a ≠ b ∧ a.store.length = 2 := by
  let f : UInt8 → Fragment := fun n => ⟨.v4, [n, 0, 0, 0], 0x100, 0, 1, 2, [n]⟩
  have h1 := Collects.step (f := f 1) .new (by decide +kernel)
  have h2 := Collects.step (f := f 2) h1 (by decide +kernel)
  exact ⟨_, _, ⟨_, _⟩, h2, .reorder h2 ⟨(List.reverse_perm _).symm, rfl⟩, by decide +kernel, by decide +kernel⟩

end Props
end Otrr
