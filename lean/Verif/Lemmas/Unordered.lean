import Verif.Lemmas.InOrder
/-! The unordered assembler against its specification. -/

namespace Otrr
open Otrr.Spec

/-- The pieces still missing (indices in `js`) replaced by nothing. -/
def maskParts (pieces : List Bytes) (js : List Nat) : List Bytes :=
  pieces.mapIdx fun i p => if i ∈ js then [] else p

theorem maskParts_length (pieces : List Bytes) (js : List Nat) :
    (maskParts pieces js).length = pieces.length := by simp [maskParts]

theorem maskParts_getElem? (pieces : List Bytes) (js : List Nat) (i : Nat) :
    (maskParts pieces js)[i]? = (pieces[i]?).map fun p => if i ∈ js then [] else p := by
  simp [maskParts]

theorem maskParts_nil (pieces : List Bytes) : maskParts pieces [] = pieces := by
  apply List.ext_getElem?
  intro i
  rw [maskParts_getElem?]
  cases pieces[i]? <;> simp

theorem maskParts_all {pieces : List Bytes} {js : List Nat} (h : ∀ i, i < pieces.length → i ∈ js) :
    maskParts pieces js = List.replicate pieces.length [] := by
  apply List.ext_getElem?
  intro i
  rw [maskParts_getElem?, List.getElem?_replicate]
  by_cases hi : i < pieces.length
  · simp [hi, h i hi]
  · simp [hi]

theorem maskParts_set {pieces : List Bytes} {j : Nat} {js : List Nat} (hj : j < pieces.length)
    (hn : j ∉ js) : (maskParts pieces (j :: js)).set j (pieces.getD j []) = maskParts pieces js := by
  apply List.ext_getElem?
  intro i
  rw [List.getElem?_set, maskParts_getElem?, maskParts_getElem?, maskParts_length]
  by_cases hij : j = i
  · subst hij
    simp [hj, hn]
  · simp [hij, Ne.symm hij]

theorem maskParts_any {pieces : List Bytes} {js : List Nat} (hne : ∀ p ∈ pieces, p ≠ [])
    (hjs : ∀ j ∈ js, j < pieces.length) :
    (maskParts pieces js).any (· == []) = !js.isEmpty := by
  cases js with
  | nil =>
    rw [maskParts_nil]
    simp only [List.isEmpty_nil, Bool.not_true]
    rw [List.any_eq_false]
    intro p hp
    simpa using hne p hp
  | cons j js =>
    simp only [List.isEmpty_cons, Bool.not_false]
    rw [List.any_eq_true]
    refine ⟨[], ?_, by simp⟩
    have hj := hjs j (by simp)
    apply List.mem_of_getElem? (i := j)
    rw [maskParts_getElem?]
    simp [hj]

theorem maskParts_sum_le (pieces : List Bytes) (js : List Nat) :
    ((maskParts pieces js).map List.length).sum ≤ (pieces.map List.length).sum := by
  have key : ∀ (ps : List Bytes) (f : Nat → Bytes → Bytes), (∀ i p, (f i p).length ≤ p.length) →
      ((ps.mapIdx f).map List.length).sum ≤ (ps.map List.length).sum := by
    intro ps
    induction ps with
    | nil => intros; simp
    | cons p ps ih =>
      intro f hf
      simp only [List.mapIdx_cons, List.map_cons, List.sum_cons]
      have := ih (fun i => f (i + 1)) (fun i p => hf (i + 1) p)
      have := hf 0 p
      omega
  apply key
  intro i p
  split <;> simp

/-- A key universe of at most 100 identifiers leaves room. -/
theorem room_of_ids {m : List (Bytes × Assembly)} {ids : List Bytes} {id : Bytes}
    (hn : (m.map Prod.fst).Nodup) (hk : ∀ k ∈ m.map Prod.fst, k ∈ ids) (hid : id ∈ ids)
    (hl : ids.length ≤ MAX_MESSAGES) :
    (lookup m id).isSome = true ∨ m.length < MAX_MESSAGES := by
  by_cases h : id ∈ m.map Prod.fst
  · left; exact (lookup_isSome_iff m id).mpr h
  · right
    have hn2 : (id :: m.map Prod.fst).Nodup := List.nodup_cons.mpr ⟨h, hn⟩
    have hs : (id :: m.map Prod.fst) ⊆ ids := by
      intro x hx
      rcases List.mem_cons.mp hx with rfl | hx
      · exact hid
      · exact hk x hx
    have := hn2.length_le_of_subset hs
    simp at this
    omega

theorem fragmentOf_wellFormed {id : Bytes} {s r : UInt32} {pieces : List Bytes} {j : Nat}
    (hj : j < pieces.length) (hn : pieces.length < 65536) (hne : ∀ p ∈ pieces, p ≠ [])
    (hsz : ∀ p ∈ pieces, p.length ≤ 250 * 1024) : WellFormed (fragmentOf id s r pieces j) := by
  have h1 : (UInt16.ofNat (j + 1)).toNat = j + 1 := UInt16.toNat_ofNat_len (by omega)
  have h2 : (UInt16.ofNat pieces.length).toNat = pieces.length := UInt16.toNat_ofNat_len (by omega)
  have hm : pieces.getD j [] ∈ pieces := by
    rw [List.getD_eq_getElem?_getD, List.getElem?_eq_getElem hj]
    exact List.getElem_mem _
  exact {
    ident := by simp [fragmentOf]
    part := by simp only [fragmentOf, h1]; omega
    total := by simp only [fragmentOf, h1, h2]; omega
    payload := hne _ hm
    size := hsz _ hm }

/-- Outcomes that concern the message `id`. -/
def ownOutcomes (id : Bytes) (hist : List Fragment) (outs : List AsmRes) : List AsmRes :=
  ((hist.zip outs).filter fun e => decide (e.1.identifier = id)).map (·.2)

theorem Unordered.feed_own (id : Bytes) (s r : UInt32) (pieces : List Bytes) (ids : List Bytes)
    (hids : ids.length ≤ MAX_MESSAGES) (hid : id ∈ ids)
    (hn : pieces.length < 65536) (hne : ∀ p ∈ pieces, p ≠ [])
    (hsz : ∀ p ∈ pieces, p.length ≤ 250 * 1024)
    (hsum : (pieces.map List.length).sum ≤ MAX_MESSAGE_SIZE)
    (hist : List Fragment) (a : Unordered) (js : List Nat)
    (hnd : (a.store.map Prod.fst).Nodup) (hk : ∀ k ∈ a.store.map Prod.fst, k ∈ ids)
    (hh : ∀ f ∈ hist, f.identifier ∈ ids)
    (htick : a.tick.toNat + hist.length < 2 ^ 32)
    (hjs : js.Nodup) (hjl : ∀ j ∈ js, j < pieces.length)
    (hown : hist.filter (fun f => decide (f.identifier = id)) = js.map (fragmentOf id s r pieces))
    (hent : js ≠ [] → ((lookup a.store id).map (·.parts)).getD (List.replicate pieces.length []) =
      maskParts pieces js) :
    ownOutcomes id hist (feed Unordered.assemble a hist).1 =
      if js = [] then [] else
        List.replicate (js.length - 1) (.err .incompleteResult) ++ [.ok pieces.flatten] := by
  induction hist generalizing a js with
  | nil =>
    have : js = [] := by simpa using hown.symm
    simp [this, ownOutcomes]
  | cons f hist ih =>
    have hlen : a.store.length ≤ MAX_MESSAGES := by
      have := hnd.length_le_of_subset (show a.store.map Prod.fst ⊆ ids from fun x hx => hk x hx)
      simp at this
      omega
    have hroom := room_of_ids hnd hk (hh f (by simp)) hids
    have hnd' := (Unordered.assemble_inv a f hnd hlen).1
    have hk' := Unordered.assemble_keys a f ids hk (hh f (by simp)) hroom
    have htick1 : a.tick.toNat + 1 < 2 ^ 32 := by simp at htick; omega
    have htick' : (a.assemble f).2.tick.toNat + hist.length < 2 ^ 32 := by
      have := Unordered.assemble_tick a f htick1
      simp at htick
      omega
    have hh' : ∀ g ∈ hist, g.identifier ∈ ids := fun g hg => hh g (by simp [hg])
    have hfeed : (feed Unordered.assemble a (f :: hist)).1 =
        (a.assemble f).1 :: (feed Unordered.assemble (a.assemble f).2 hist).1 := rfl
    rw [hfeed]
    by_cases hf : f.identifier = id
    · rw [List.filter_cons_of_pos (by simpa using hf)] at hown
      cases js with
      | nil => simp at hown
      | cons j js =>
        simp only [List.map_cons, List.cons.injEq] at hown
        obtain ⟨hfe, hown⟩ := hown
        have hj : j < pieces.length := hjl j (by simp)
        have hjn : j ∉ js := (List.nodup_cons.mp hjs).1
        have hwf : WellFormed f := hfe ▸ fragmentOf_wellFormed hj hn hne hsz
        have h1 : f.part.toNat - 1 = j := by
          rw [hfe]; simp only [fragmentOf]; rw [UInt16.toNat_ofNat_len (by omega)]; omega
        have h2 : f.total.toNat = pieces.length := by
          rw [hfe]; simp only [fragmentOf]; rw [UInt16.toNat_ofNat_len (by omega)]
        have h3 : f.payload = pieces.getD j [] := by rw [hfe]; rfl
        have hset : (maskParts pieces (j :: js)).set (f.part.toNat - 1) f.payload = maskParts pieces js := by
          rw [h1, h3]; exact maskParts_set hj hjn
        have hstep := Unordered.assemble_own a f (maskParts pieces (j :: js))
          ((wellFormed_iff f).mp hwf) hlen hroom htick1
          (by rw [hf, h2]; exact hent (by simp))
          (by rw [maskParts_length, h2])
          (by rw [h1, maskParts_getElem?]; simp [hj])
          (by rw [hset]; exact Nat.le_trans (maskParts_sum_le _ _) hsum)
        rw [hset, maskParts_any hne (fun x hx => hjl x (by simp [hx]))] at hstep
        have hcons : ownOutcomes id (f :: hist)
            ((a.assemble f).1 :: (feed Unordered.assemble (a.assemble f).2 hist).1) =
            (a.assemble f).1 :: ownOutcomes id hist (feed Unordered.assemble (a.assemble f).2 hist).1 := by
          simp [ownOutcomes, hf]
        rw [hcons]
        have hrec := ih (a.assemble f).2 js hnd' hk' hh' htick' (List.nodup_cons.mp hjs).2
          (fun x hx => hjl x (by simp [hx])) hown
        cases js with
        | nil =>
          simp only [List.isEmpty_nil, Bool.not_true, Bool.false_eq_true, if_false, maskParts_nil] at hstep
          rw [hrec (by simp), hstep.1]
          simp
        | cons j' js' =>
          simp only [List.isEmpty_cons, Bool.not_false, if_true] at hstep
          obtain ⟨ho, t, hl⟩ := hstep
          rw [hrec (by intro _; rw [← hf, hl]; rfl), ho]
          simp [List.replicate_succ]
    · rw [List.filter_cons_of_neg (by simpa using hf)] at hown
      have hcons : ownOutcomes id (f :: hist)
          ((a.assemble f).1 :: (feed Unordered.assemble (a.assemble f).2 hist).1) =
          ownOutcomes id hist (feed Unordered.assemble (a.assemble f).2 hist).1 := by
        simp [ownOutcomes, hf]
      rw [hcons]
      apply ih (a.assemble f).2 js hnd' hk' hh' htick' hjs hjl hown
      intro h
      rw [Unordered.assemble_frame a f id hf hroom]
      exact hent h

theorem Unordered.feed_inv (hist : List Fragment) (a : Unordered) (hnd : (a.store.map Prod.fst).Nodup)
    (hl : a.store.length ≤ MAX_MESSAGES) :
    ((feed Unordered.assemble a hist).2.store.map Prod.fst).Nodup ∧
      (feed Unordered.assemble a hist).2.store.length ≤ MAX_MESSAGES := by
  induction hist generalizing a with
  | nil => exact ⟨hnd, hl⟩
  | cons f hist ih =>
    obtain ⟨h1, h2⟩ := Unordered.assemble_inv a f hnd hl
    exact ih _ h1 h2

/-- The only panic of the OTRv4 assembler is the overflow of its tick counter. -/
theorem Unordered.assemble_panic (a : Unordered) (f : Fragment) (hl : a.store.length ≤ MAX_MESSAGES)
    (h : (a.assemble f).1 = .panic) : a.tick = 0xffffffff := by
  by_cases hv : verifyFragment f = true
  · have hv' := (verifyFragment_iff f).mp hv
    obtain ⟨r1, -⟩ := evict_room (id := f.identifier) a.store.length a.store (Nat.le_refl _)
    have hnl : ¬ MAX_MESSAGES < (evict f.identifier a.store.length a.store).length := by omega
    by_cases ht : a.tick = 0xffffffff
    · exact ht
    exfalso
    unfold Unordered.assemble at h
    simp only [hv, Bool.not_true, Bool.false_eq_true, if_false, hnl, ht] at h
    split at h
    · simp at h
    · next hlen =>
      split at h
      · next hnone =>
        rw [List.getElem?_eq_none_iff] at hnone
        simp at hlen
        omega
      · split at h
        · simp at h
        · split at h
          · simp at h
          · split at h <;> simp at h
  · unfold Unordered.assemble at h
    simp [hv] at h

end Otrr
