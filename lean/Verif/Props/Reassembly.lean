import Verif.Props.Fragment
/-! C68: what the OTRv4 reassembler delivers. -/

namespace Otrr.Props
open Otrr Otrr.Spec

/-! ## The invariant -/

/-- One slot of an incomplete message: empty if no such part arrived, else the first that did. -/
def Slot (window : List Fragment) (id : Bytes) (n j : Nat) (p : Bytes) : Prop :=
  (p = [] ∧ ∀ g ∈ window, ¬ IsPart id n j g) ∨ ∃ f, FirstPart window id n j f ∧ p = f.payload

/-- The incomplete message `id` consists of the first parts that arrived from some point on. -/
def Slots (received : List Fragment) (store : List (Bytes × Assembly)) (id : Bytes) : Prop :=
  ∀ e, lookup store id = some e → e.parts ≠ [] ∧ ∃ before window, received = before ++ window ∧
    ∀ j p, e.parts[j]? = some p → Slot window id e.parts.length (j + 1) p

theorem Slot.later {w : List Fragment} {id : Bytes} {n j : Nat} {p : Bytes} (h : Slot w id n j p) {f : Fragment}
    (hf : p ≠ [] ∨ ¬ IsPart id n j f) : Slot (w ++ [f]) id n j p := by
  rcases h with ⟨rfl, h2⟩ | ⟨g, ⟨a, b, h1, h2, h3⟩, rfl⟩
  · have hf' := hf.resolve_left (by simp)
    refine .inl ⟨rfl, fun g hg => ?_⟩
    rcases List.mem_append.mp hg with hg | hg
    · exact h2 g hg
    · rw [List.mem_singleton.mp hg]
      exact hf'
  · exact .inr ⟨g, ⟨a, b ++ [f], by rw [h1]; simp, h2, h3⟩, rfl⟩

theorem evict_lookup {id : Bytes} (k : Bytes) : ∀ (n : Nat) (m : List (Bytes × Assembly)) {e : Assembly},
    lookup (evict id n m) k = some e → lookup m k = some e
  | 0, _, _, h => h
  | n + 1, m, e, h => by
    unfold evict at h
    split at h
    · split at h
      · have := evict_lookup k n _ h
        rw [lookup_eraseKey] at this
        split at this
        · cases this
        · exact this
      · exact h
    · exact h

/-- Extend by a fragment that is no part of the message as it is being assembled. -/
theorem Slots.extend {received : List Fragment} {e : Assembly} {id : Bytes} {f : Fragment}
    (h : e.parts ≠ [] ∧ ∃ before window, received = before ++ window ∧
      ∀ j p, e.parts[j]? = some p → Slot window id e.parts.length (j + 1) p)
    (hf : ∀ j p, e.parts[j]? = some p → p ≠ [] ∨ ¬ IsPart id e.parts.length (j + 1) f) :
    e.parts ≠ [] ∧ ∃ before window, received ++ [f] = before ++ window ∧
      ∀ j p, e.parts[j]? = some p → Slot window id e.parts.length (j + 1) p := by
  obtain ⟨h0, b, w, h1, h2⟩ := h
  exact ⟨h0, b, w ++ [f], by rw [h1, List.append_assoc], fun j p hj => (h2 j p hj).later (hf j p hj)⟩

theorem Slots.step {received : List Fragment} {a : Unordered} {id : Bytes} (h : Slots received a.store id) (f : Fragment)
    (hp : (a.assemble f).1 ≠ .panic) :
    Slots (received ++ [f]) (a.assemble f).2.store id ∧
      ∀ m, f.identifier = id → (a.assemble f).1 = .ok m → Collected (received ++ [f]) id m ∧
        lookup (a.assemble f).2.store id = .none := by
  by_cases hv : verifyFragment f = true
  · have hw : WellFormed f := (wellFormed_iff f).mpr hv
    have hev : Slots received (evict f.identifier a.store.length a.store) id :=
      fun e he => h e (evict_lookup id _ _ he)
    by_cases hid : f.identifier = id
    · -- the entry
      have hent : ∀ e, (lookup (evict f.identifier a.store.length a.store) f.identifier).getD
            ⟨0, List.replicate f.total.toNat []⟩ = e →
          e.parts ≠ [] ∧ ∃ before window, received = before ++ window ∧
            ∀ j p, e.parts[j]? = some p → Slot window id e.parts.length (j + 1) p := by
        intro e he
        cases hl : lookup (evict f.identifier a.store.length a.store) f.identifier with
        | none =>
          rw [hl] at he
          simp only [Option.getD_none] at he
          subst he
          have htot := hw.total
          have hpart := hw.part
          refine ⟨?_, received, [], (List.append_nil _).symm, ?_⟩
          · intro hn
            have := congrArg List.length hn
            simp only [List.length_replicate, List.length_nil] at this
            omega
          · intro j p hj
            have := List.mem_of_getElem? hj
            simp only [List.mem_replicate] at this
            exact .inl ⟨this.2, by simp⟩
        | some e' =>
          rw [hl] at he
          simp only [Option.getD_some] at he
          subst he
          exact hev e' (hid ▸ hl)
      unfold Unordered.assemble at hp ⊢
      simp only [hv, Bool.not_true, Bool.false_eq_true, if_false] at hp ⊢
      split at hp
      · exact absurd rfl hp
      rename_i hmax
      rw [if_neg hmax]
      split at hp
      · exact absurd rfl hp
      rename_i htick
      rw [if_neg htick]
      generalize hge : (lookup (evict f.identifier a.store.length a.store) f.identifier).getD
            ⟨0, List.replicate f.total.toNat []⟩ = e at hp ⊢
      have he := hent e hge
      by_cases hlen : e.parts.length ≠ f.total.toNat
      · rw [if_pos hlen]
        refine ⟨?_, by intro m _ hm; cases hm⟩
        intro e' he'
        rw [lookup_insertKey, if_pos hid, Option.some.injEq] at he'
        subst he'
        refine Slots.extend (e := e) he fun j p _ => .inr ?_
        rintro ⟨_, _, h3, _⟩
        exact hlen h3.symm
      · rw [if_neg hlen] at hp ⊢
        have hlen' : e.parts.length = f.total.toNat := by omega
        cases hg : e.parts[f.part.toNat - 1]? with
        | none =>
          simp only [hg] at hp
          exact absurd rfl hp
        | some p =>
          simp only [hg] at hp ⊢
          by_cases hpe : p ≠ []
          · rw [if_pos hpe]
            refine ⟨?_, by intro m _ hm; cases hm⟩
            intro e' he'
            rw [lookup_insertKey, if_pos hid, Option.some.injEq] at he'
            subst he'
            refine Slots.extend (e := e) he fun j q hj => ?_
            by_cases hq : q = []
            · right
              rintro ⟨_, _, _, h4⟩
              rw [h4, Nat.add_sub_cancel] at hg
              rw [hj, Option.some.injEq] at hg
              exact hpe (hg ▸ hq)
            · exact .inl hq
          · rw [if_neg hpe]
            have hpe' : p = [] := by simpa using hpe
            subst hpe'
            have hidx : f.part.toNat - 1 < e.parts.length := (List.getElem?_eq_some_iff.mp hg).1
            have hpart := hw.part
            -- the slots with the new part
            have hnew : (e.parts.set (f.part.toNat - 1) f.payload) ≠ [] ∧ ∃ before window, received ++ [f] = before ++ window ∧
                ∀ j p, (e.parts.set (f.part.toNat - 1) f.payload)[j]? = some p →
                  Slot window id (e.parts.set (f.part.toNat - 1) f.payload).length (j + 1) p := by
              obtain ⟨h0, b, w, h1, h2⟩ := he
              refine ⟨?_, b, w ++ [f], by rw [h1, List.append_assoc], ?_⟩
              · intro hn
                have := congrArg List.length hn
                simp only [List.length_set, List.length_nil] at this
                omega
              · intro j q hj
                rw [List.length_set]
                rw [List.getElem?_set] at hj
                split at hj
                · rename_i hje
                  rw [Option.some.injEq] at hj
                  subst hj
                  right
                  refine ⟨f, ⟨w, [], rfl, ⟨hw, hid, hlen'.symm, by omega⟩, ?_⟩, rfl⟩
                  rcases h2 _ _ hg with ⟨_, h5⟩ | ⟨g, h5, h6⟩
                  · intro g hg'
                    have := h5 g hg'
                    rwa [hje] at this
                  · obtain ⟨_, _, _, ⟨hgw, _⟩, _⟩ := h5
                    exact absurd h6.symm hgw.payload
                · rename_i hje
                  refine (h2 j q hj).later (.inr ?_)
                  rintro ⟨_, _, _, h4⟩
                  exact hje (by omega)
            by_cases hbig : (((e.parts.set (f.part.toNat - 1) f.payload).map List.length).sum > MAX_MESSAGE_SIZE &&
                (e.parts.set (f.part.toNat - 1) f.payload).any (· == [])) = true
            · rw [if_pos hbig]
              refine ⟨?_, by intro m _ hm; cases hm⟩
              intro e' he'
              rw [lookup_eraseKey, if_pos hid] at he'
              cases he'
            · rw [if_neg hbig]
              by_cases hany : (e.parts.set (f.part.toNat - 1) f.payload).any (· == []) = true
              · rw [if_pos hany]
                refine ⟨?_, by intro m _ hm; cases hm⟩
                intro e' he'
                rw [lookup_insertKey, if_pos hid, Option.some.injEq] at he'
                subst he'
                exact hnew
              · rw [if_neg hany]
                refine ⟨?_, ?_⟩
                · intro e' he'
                  rw [lookup_eraseKey, if_pos hid] at he'
                  cases he'
                · intro m _ hm
                  refine ⟨?_, by rw [lookup_eraseKey, if_pos hid]⟩
                  simp only [AsmRes.ok.injEq] at hm
                  generalize (e.parts.set (f.part.toNat - 1) f.payload) = parts at *
                  obtain ⟨h0, b, w, h1, h2⟩ := hnew
                  have hall : ∀ j p, parts[j]? = some p → ∃ g, FirstPart w id parts.length (j + 1) g ∧ p = g.payload := by
                    intro j p hj
                    rcases h2 j p hj with ⟨rfl, _⟩ | h5
                    · exfalso
                      apply hany
                      rw [List.any_eq_true]
                      exact ⟨[], List.mem_of_getElem? hj, rfl⟩
                    · exact h5
                  -- choose the fragments
                  have hch : ∀ n, n ≤ parts.length → ∃ fs : List Fragment, fs.length = n ∧
                      fs.map (·.payload) = parts.take n ∧ ∀ i g, fs[i]? = some g → FirstPart w id parts.length (i + 1) g := by
                    intro n
                    induction n with
                    | zero => intro _; exact ⟨[], rfl, rfl, by simp⟩
                    | succ n ih =>
                      intro hn
                      obtain ⟨fs, f1, f2, f3⟩ := ih (by omega)
                      obtain ⟨g, g1, g2⟩ := hall n parts[n] (List.getElem?_eq_getElem (by omega))
                      refine ⟨fs ++ [g], by simp [f1], ?_, ?_⟩
                      · rw [List.map_append, f2, List.take_succ, List.getElem?_eq_getElem (by omega : n < parts.length)]
                        simp [g2]
                      · intro i x hx
                        rw [List.getElem?_append] at hx
                        split at hx
                        · exact f3 i x hx
                        · rename_i hi
                          rw [List.getElem?_singleton] at hx
                          split at hx
                          · rename_i hz
                            rw [Option.some.injEq] at hx
                            subst hx
                            rw [show i = n by omega]
                            exact g1
                          · cases hx
                  obtain ⟨fs, f1, f2, f3⟩ := hch parts.length (Nat.le_refl _)
                  rw [List.take_length] at f2
                  refine ⟨b, w, fs, h1, ?_, by rw [f2, hm], ?_⟩
                  · intro hn
                    rw [hn] at f2
                    exact h0 f2.symm
                  · rw [f1]
                    exact f3
    · refine ⟨?_, fun m he => absurd he hid⟩
      have hfr : ∀ e, lookup (a.assemble f).2.store id = some e →
          lookup (evict f.identifier a.store.length a.store) id = some e := by
        intro e he
        unfold Unordered.assemble at he
        simp only [hv, Bool.not_true, Bool.false_eq_true, if_false] at he
        repeat' split at he
        all_goals simp only [lookup_eraseKey, lookup_insertKey, if_neg hid] at he
        all_goals exact he
      intro e he
      refine Slots.extend (hev e (hfr e he)) fun j p _ => .inr ?_
      rintro ⟨_, h2, _⟩
      exact hid h2
  · have hw : ¬ WellFormed f := fun h => hv ((wellFormed_iff f).mp h)
    have e1 : a.assemble f = (.err .invalidData, a) := by
      unfold Unordered.assemble
      simp [hv]
    rw [e1]
    refine ⟨?_, by intro m _ hm; cases hm⟩
    intro e he
    refine Slots.extend (h e he) fun j p _ => .inr ?_
    rintro ⟨h1, _⟩
    exact hw h1

theorem Slots.feed {received : List Fragment} {a : Unordered} {id : Bytes} (h : Slots received a.store id) (fs : List Fragment)
    (hp : AsmRes.panic ∉ (feed Unordered.assemble a fs).1) :
    Slots (received ++ fs) (Spec.feed Unordered.assemble a fs).2.store id := by
  induction fs generalizing received a with
  | nil => rw [List.append_nil]; exact h
  | cons f fs ih =>
    simp only [Spec.feed, List.mem_cons, not_or] at hp
    have := ih (h.step f (fun e => hp.1 e.symm)).1 hp.2
    rw [List.append_assoc] at this
    exact this

theorem feed_append (step : σ → Fragment → AsmRes × σ) (s : σ) (xs ys : List Fragment) :
    feed step s (xs ++ ys) = ((feed step s xs).1 ++ (feed step (feed step s xs).2 ys).1, (feed step (feed step s xs).2 ys).2) := by
  induction xs generalizing s with
  | nil => rfl
  | cons x xs ih => simp only [List.cons_append, feed, ih]

/-! ## C68 -/

/-- C68: what the OTRv4 reassembler delivers, after any fragments from the network, is the concatenation of
the parts 1..n of n of one message: for each part the first that arrived, from some point on.  A later
fragment for the same part never changes the message. -/
theorem C68_first_parts (hist : List Fragment) (f : Fragment) (m : Bytes)
    (hnp : AsmRes.panic ∉ (feed Unordered.assemble Unordered.new hist).1)
    (h : ((feed Unordered.assemble Unordered.new hist).2.assemble f).1 = .ok m) :
    Collected (hist ++ [f]) f.identifier m := by
  have h0 : Slots [] Unordered.new.store f.identifier := by intro e he; cases he
  have h1 := Slots.feed h0 hist hnp
  rw [List.nil_append] at h1
  exact ((h1.step f (by rw [h]; simp)).2 m rfl h).1

/-- C68: once a message was delivered, its fragments are spent: the next message with this identifier is
made of fragments that arrived after it. -/
theorem C68_fresh (hist later : List Fragment) (g f : Fragment) (m m' : Bytes) (hid : g.identifier = f.identifier)
    (hnp : AsmRes.panic ∉ (feed Unordered.assemble Unordered.new (hist ++ [g] ++ later)).1)
    (hg : ((feed Unordered.assemble Unordered.new hist).2.assemble g).1 = .ok m)
    (h : ((feed Unordered.assemble Unordered.new (hist ++ [g] ++ later)).2.assemble f).1 = .ok m') :
    Collected (later ++ [f]) f.identifier m' := by
  rw [List.append_assoc, feed_append, List.mem_append, not_or] at hnp
  rw [List.append_assoc, feed_append] at h
  simp only [List.cons_append, List.nil_append, feed, List.mem_cons, not_or] at hnp h
  have h0 : Slots [] Unordered.new.store f.identifier := by intro e he; cases he
  have h1 := Slots.feed h0 hist hnp.1
  have h2 := ((h1.step g (by rw [hg]; simp)).2 m hid hg).2
  have h3 : Slots [] ((feed Unordered.assemble Unordered.new hist).2.assemble g).2.store f.identifier := by
    intro e he
    rw [h2] at he
    cases he
  have h4 := Slots.feed h3 later hnp.2.2
  rw [List.nil_append] at h4
  exact ((h4.step f (by rw [h]; simp)).2 m' rfl h).1

/-- Part 1 arrives twice, with different payloads: the first counts. -/
example : ((feed Unordered.assemble Unordered.new [fragmentOf [0, 0, 0, 1] 0x100 0x101 [[65], [66]] 0,
    fragmentOf [0, 0, 0, 1] 0x100 0x101 [[67], [66]] 0]).2.assemble (fragmentOf [0, 0, 0, 1] 0x100 0x101 [[65], [66]] 1)).1 =
      .ok [65, 66] ∧
    AsmRes.panic ∉ (feed Unordered.assemble Unordered.new [fragmentOf [0, 0, 0, 1] 0x100 0x101 [[65], [66]] 0,
      fragmentOf [0, 0, 0, 1] 0x100 0x101 [[67], [66]] 0]).1 := by decide +kernel

/-- A message is delivered a second time only if all its parts arrive again. -/
example : ((feed Unordered.assemble Unordered.new [fragmentOf [0, 0, 0, 1] 0x100 0x101 [[65], [66]] 0,
    fragmentOf [0, 0, 0, 1] 0x100 0x101 [[65], [66]] 1, fragmentOf [0, 0, 0, 1] 0x100 0x101 [[65], [66]] 1]).2.assemble
      (fragmentOf [0, 0, 0, 1] 0x100 0x101 [[65], [66]] 0)).1 = .ok [65, 66] := by decide +kernel

end Otrr.Props
