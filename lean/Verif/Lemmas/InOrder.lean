import Verif.Lemmas.Assembly
/-! The in-order assembler against its specification. -/

namespace Otrr
open Otrr.Spec

theorem wellFormed_iff (f : Fragment) : Spec.WellFormed f ↔ verifyFragment f = true := by
  rw [verifyFragment_iff]
  constructor
  · rintro ⟨h1, h2, h3, h4, h5⟩; exact ⟨h1, h2, h3, h4, h5⟩
  · rintro ⟨h1, h2, h3, h4, h5⟩; exact ⟨h1, h2, h3, h4, h5⟩

theorem Spec.FirstParts.snoc_last {run : List Fragment} {f : Fragment} {n : Nat} (h : FirstParts (run ++ [f]) n) :
    f.part.toNat = run.length + 1 ∧ f.total.toNat = n ∧ FirstParts run n := by
  have := h run.length f (by simp)
  refine ⟨this.1, this.2, ?_⟩
  intro i g hg
  apply h i g
  have hi : i < run.length := by
    rw [List.getElem?_eq_some_iff] at hg
    exact hg.1
  rw [List.getElem?_append_left hi]
  exact hg

theorem Spec.FirstParts.snoc {run : List Fragment} {f : Fragment} {n : Nat} (h : FirstParts run n)
    (h1 : f.part.toNat = run.length + 1) (h2 : f.total.toNat = n) : FirstParts (run ++ [f]) n := by
  intro i g hg
  by_cases hi : i < run.length
  · rw [List.getElem?_append_left hi] at hg
    exact h i g hg
  · rw [List.getElem?_append_right (by omega)] at hg
    have hi' : i - run.length = 0 := by
      rw [List.getElem?_eq_some_iff] at hg
      have := hg.1
      simp at this
      omega
    rw [hi'] at hg
    simp at hg
    subst hg
    exact ⟨by omega, h2⟩

/-- The end of a run of first parts determines it. -/
theorem firstParts_unique {pre pre' run run' : List Fragment} {n n' : Nat}
    (he : pre ++ run = pre' ++ run') (h : FirstParts run n) (h' : FirstParts run' n')
    (h0 : run ≠ []) (h0' : run' ≠ []) : run = run' ∧ n = n' := by
  obtain ⟨r, x, rfl⟩ : ∃ r x, run = r ++ [x] := ⟨run.dropLast, run.getLast h0, (List.dropLast_concat_getLast h0).symm⟩
  obtain ⟨r', x', rfl⟩ : ∃ r x, run' = r ++ [x] :=
    ⟨run'.dropLast, run'.getLast h0', (List.dropLast_concat_getLast h0').symm⟩
  rw [← List.append_assoc, ← List.append_assoc] at he
  have hx := List.append_inj' he rfl
  have hxx : x = x' := by simpa using hx.2
  subst hxx
  obtain ⟨a1, a2, -⟩ := h.snoc_last
  obtain ⟨b1, b2, -⟩ := h'.snoc_last
  have hlen : r.length = r'.length := by omega
  have := List.append_inj' hx.1 hlen
  exact ⟨by rw [this.2], by omega⟩

/-- What the state says about the fragments received so far. -/
def InOrder.Inv (a : InOrder) (hist : List Fragment) : Prop :=
  (a.last.toNat = 0 ∧ ∀ pre run n, hist = pre ++ run → run ≠ [] → ¬ FirstParts run n) ∨
  (∃ pre run n, hist = pre ++ run ∧ run ≠ [] ∧ FirstParts run n ∧ a.last.toNat = run.length ∧
    a.total.toNat = n ∧ (run.length < n → a.content = (run.map (·.payload)).flatten))

theorem InOrder.inv_new : InOrder.Inv InOrder.new [] := by
  left
  refine ⟨rfl, ?_⟩
  intro pre run n h hne
  exact absurd (List.append_eq_nil_iff.mp h.symm).2 hne

theorem justCompleted_of_run {hist pre run : List Fragment} {n : Nat} {m : Bytes} (he : hist = pre ++ run)
    (hne : run ≠ []) (h : FirstParts run n) :
    JustCompleted hist m ↔ run.length = n ∧ m = (run.map (·.payload)).flatten := by
  constructor
  · rintro ⟨pre', run', n', h1, h2, h3, h4, h5⟩
    have hne' : run' ≠ [] := by
      intro hc; rw [hc] at h2; simp at h2; omega
    obtain ⟨rfl, rfl⟩ := firstParts_unique (he.symm.trans h1) h h4 hne hne'
    exact ⟨h2, h5⟩
  · rintro ⟨h1, h2⟩
    exact ⟨pre, run, n, he, h1, by
      have := List.length_pos_iff.mpr hne
      omega, h, h2⟩

theorem InOrder.step (a : InOrder) (hist : List Fragment) (f : Fragment) (hI : a.Inv hist)
    (hf : WellFormed f) :
    ((a.assemble f).1 ≠ .panic → (a.assemble f).2.Inv (hist ++ [f])) ∧
      ∀ m, (a.assemble f).1 = .ok m ↔ JustCompleted (hist ++ [f]) m := by
  have hv := (wellFormed_iff f).mp hf
  have hp := hf.part
  have ht := hf.total
  have e1 : f.part = 1 ↔ f.part.toNat = 1 := by rw [← UInt16.toNat_inj]; rfl
  have ht2 := f.total.toNat_lt
  -- any run that ends the extended history
  have hrun : ∀ pre run n, hist ++ [f] = pre ++ run → run ≠ [] → FirstParts run n →
      f.part.toNat = run.length ∧ f.total.toNat = n ∧
        (f.part.toNat ≠ 1 → a.last.toNat + 1 = f.part.toNat ∧ a.total.toNat = f.total.toNat) := by
    intro pre run n he hne hr
    obtain ⟨r, x, rfl⟩ : ∃ r x, run = r ++ [x] :=
      ⟨run.dropLast, run.getLast hne, (List.dropLast_concat_getLast hne).symm⟩
    rw [← List.append_assoc] at he
    have hx := List.append_inj' he rfl
    have hxx : f = x := by simpa using hx.2
    subst hxx
    obtain ⟨b1, b2, b3⟩ := hr.snoc_last
    refine ⟨by simpa using b1, b2, ?_⟩
    intro h1
    have hr0 : r ≠ [] := by intro hc; rw [hc] at b1; simp at b1; omega
    rcases hI with ⟨-, h⟩ | ⟨pre', run', n', h1', h2', h3', h4', h5', -⟩
    · exact absurd b3 (h _ _ _ hx.1 hr0)
    · obtain ⟨rfl, rfl⟩ := firstParts_unique (hx.1.symm.trans h1') b3 h3' hr0 h2'
      omega
  by_cases h1 : f.part = 1
  · -- first part
    have hfp : FirstParts [f] f.total.toNat := by
      intro i g hg
      cases i with
      | zero => simp at hg; subst hg; exact ⟨by rw [e1.mp h1], rfl⟩
      | succ i => simp at hg
    have hJ : ∀ m, JustCompleted (hist ++ [f]) m ↔ 1 = f.total.toNat ∧ m = f.payload := by
      intro m
      rw [justCompleted_of_run (pre := hist) (run := [f]) rfl (by simp) hfp]
      simp
    have e2 : (1 : UInt16) = f.total ↔ 1 = f.total.toNat := by rw [← UInt16.toNat_inj]; rfl
    unfold InOrder.assemble
    simp only [hv, Bool.not_true, Bool.false_eq_true, if_false, h1, if_true]
    by_cases hc : (1 : UInt16) = f.total
    · simp only [hc, if_true]
      refine ⟨fun _ => ?_, fun m => ?_⟩
      · right
        exact ⟨hist, [f], f.total.toNat, rfl, by simp, hfp, by rw [← e2.mp hc]; rfl, rfl, by
          have := e2.mp hc; simp; omega⟩
      · rw [hJ]
        simp [← e2.mp hc, eq_comm]
    · simp only [hc, if_false]
      refine ⟨fun _ => ?_, fun m => ?_⟩
      · right
        exact ⟨hist, [f], f.total.toNat, rfl, by simp, hfp, rfl, rfl, by simp⟩
      · rw [hJ]
        simp
        intro h
        exact absurd (e2.mpr h) hc
  · have h1' : f.part.toNat ≠ 1 := fun h => h1 (e1.mpr h)
    have e2 : f.total = a.total ↔ f.total.toNat = a.total.toNat := by rw [← UInt16.toNat_inj]
    have e3 : a.last = 65535 ↔ a.last.toNat = 65535 := by rw [← UInt16.toNat_inj]; rfl
    have noRun : (a.last.toNat + 1 = f.part.toNat → a.total.toNat = f.total.toNat → False) →
        ∀ pre run n, hist ++ [f] = pre ++ run → run ≠ [] → ¬ FirstParts run n := by
      intro hno pre run n he hne hr
      obtain ⟨-, -, h⟩ := hrun pre run n he hne hr
      exact hno (h h1').1 (h h1').2
    have noJust : (a.last.toNat + 1 = f.part.toNat → a.total.toNat = f.total.toNat → False) →
        ∀ m, ¬ JustCompleted (hist ++ [f]) m := by
      rintro hno m ⟨pre, run, n, g1, g2, g3, g4, -⟩
      exact noRun hno pre run n g1 (by intro hc; rw [hc] at g2; simp at g2; omega) g4
    unfold InOrder.assemble
    simp only [hv, Bool.not_true, Bool.false_eq_true, if_false, h1]
    by_cases h2 : f.total = a.total
    · simp only [h2, if_true]
      by_cases h3 : a.last = 65535
      · simp only [h3, if_true]
        refine ⟨fun h => absurd rfl h, fun m => ?_⟩
        simp only [reduceCtorEq, false_iff]
        apply noJust
        intro h
        rw [e3] at h3
        omega
      · simp only [h3, if_false]
        have h3' : a.last.toNat ≠ 65535 := fun h => h3 (e3.mpr h)
        have hlt := a.last.toNat_lt
        have hadd : (a.last + 1).toNat = a.last.toNat + 1 := by
          rw [UInt16.toNat_add]
          exact Nat.mod_eq_of_lt (by simp; omega)
        have e4 : f.part = a.last + 1 ↔ a.last.toNat + 1 = f.part.toNat := by
          rw [← UInt16.toNat_inj, hadd]; omega
        by_cases h4 : f.part = a.last + 1
        · simp only [h4, if_true]
          have h4' := e4.mp h4
          obtain ⟨pre, run, n, g1, g2, g3, g4, g5, g6⟩ : ∃ pre run n, hist = pre ++ run ∧ run ≠ [] ∧
              FirstParts run n ∧ a.last.toNat = run.length ∧ a.total.toNat = n ∧
              (run.length < n → a.content = (run.map (·.payload)).flatten) := by
            rcases hI with ⟨h, -⟩ | h
            · omega
            · exact h
          have hr' : FirstParts (run ++ [f]) n := g3.snoc (by omega) (by rw [e2.mp h2]; exact g5)
          have hJ := fun m => justCompleted_of_run (m := m) (hist := hist ++ [f]) (pre := pre)
            (run := run ++ [f]) (by rw [g1]; simp) (by simp) hr'
          have hlt2 : run.length < n := by
            have := e2.mp h2
            omega
          have e5 : a.last + 1 = a.total ↔ run.length + 1 = n := by
            rw [← UInt16.toNat_inj, hadd]; omega
          by_cases h5 : a.last + 1 = a.total
          · simp only [h5, if_true]
            refine ⟨fun _ => ?_, fun m => ?_⟩
            · right
              refine ⟨pre, run ++ [f], n, by rw [g1]; simp, by simp, hr', ?_, g5, ?_⟩
              · simp only [List.length_append, List.length_singleton]
                have := e5.mp h5
                omega
              · intro h
                have := e5.mp h5
                simp at h
                omega
            · rw [hJ, g6 hlt2]
              have := e5.mp h5
              simp [this, eq_comm]
          · simp only [h5, if_false]
            refine ⟨fun _ => ?_, fun m => ?_⟩
            · right
              refine ⟨pre, run ++ [f], n, by rw [g1]; simp, by simp, hr', ?_, g5, ?_⟩
              · simp only [List.length_append, List.length_singleton, hadd]
                omega
              · intro _
                rw [g6 hlt2]
                simp
            · rw [hJ]
              simp only [reduceCtorEq, false_iff, not_and]
              intro h
              simp at h
              exact absurd (e5.mpr h) h5
        · simp only [h4, if_false]
          refine ⟨fun _ => .inl ⟨rfl, noRun fun h _ => h4 (e4.mpr h)⟩, fun m => ?_⟩
          simp only [reduceCtorEq, false_iff]
          exact noJust (fun h _ => h4 (e4.mpr h)) m
    · simp only [h2, if_false]
      refine ⟨fun _ => .inl ⟨rfl, noRun fun _ h => h2 (e2.mpr h.symm)⟩, fun m => ?_⟩
      simp only [reduceCtorEq, false_iff]
      exact noJust (fun _ h => h2 (e2.mpr h.symm)) m

theorem feed_append (step : σ → Fragment → AsmRes × σ) (s : σ) (xs ys : List Fragment) :
    feed step s (xs ++ ys) =
      ((feed step s xs).1 ++ (feed step (feed step s xs).2 ys).1, (feed step (feed step s xs).2 ys).2) := by
  induction xs generalizing s with
  | nil => rfl
  | cons x xs ih => simp [feed, ih]

theorem feed_length (step : σ → Fragment → AsmRes × σ) (s : σ) (xs : List Fragment) :
    (feed step s xs).1.length = xs.length := by
  induction xs generalizing s with
  | nil => rfl
  | cons x xs ih => simp [feed, ih]

theorem InOrder.feed_inv (hist : List Fragment) (hw : ∀ f ∈ hist, WellFormed f)
    (hnp : AsmRes.panic ∉ (feed InOrder.assemble InOrder.new hist).1) :
    (feed InOrder.assemble InOrder.new hist).2.Inv hist := by
  -- induction from the right
  have key : ∀ l : List Fragment, (∀ f ∈ l.reverse, WellFormed f) →
      AsmRes.panic ∉ (feed InOrder.assemble InOrder.new l.reverse).1 →
      (feed InOrder.assemble InOrder.new l.reverse).2.Inv l.reverse := by
    intro l
    induction l with
    | nil => intros; exact InOrder.inv_new
    | cons f l ih =>
      intro hw hnp
      rw [List.reverse_cons] at hw hnp ⊢
      rw [feed_append] at hnp ⊢
      have hI := ih (fun g hg => hw g (by simp [hg])) (fun hc => hnp (by simp [hc]))
      have := InOrder.step _ _ f hI (hw f (by simp))
      apply this.1
      intro hc
      apply hnp
      simp [feed, hc]
  have := key hist.reverse
  simp only [List.reverse_reverse] at this
  exact this hw hnp

end Otrr
