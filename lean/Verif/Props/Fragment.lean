import Verif.Lemmas.Unordered
/-! C04-C09: fragments. -/

namespace Otrr.Props
open Otrr Otrr.Spec

/-! ### C04 -/

/-- C04: the textual form of a valid fragment is recognised and parsed back to the same fragment. -/
theorem C04_fragment_text_roundtrip (nd : Nat → Bool) (f : Fragment) (h : ValidFragment f) :
    ∃ text, encodeFragment f = .ok text ∧ matchFragment text = true ∧
      parseFragment nd text = .ok (some f) := by
  refine ⟨fragText f, encodeFragment_valid h, ?_, fragText_parse nd h⟩
  unfold matchFragment
  have h1 : OTR_FRAGMENT_V3_PREFIX.isPrefixOf (fragText f) = true := by
    rw [List.isPrefixOf_iff_prefix]
    unfold fragText
    rw [List.append_assoc]
    exact List.prefix_append _ _
  have h2 : OTR_FRAGMENT_SUFFIX.isSuffixOf (fragText f) = true := by
    rw [List.isSuffixOf_iff_suffix]
    refine ⟨OTR_FRAGMENT_V3_PREFIX ++
      (if f.version = .v4 then (f.identifier.map fun b => hexFixed 2 b.toNat).flatten ++ [0x7c] else []) ++
      (hexFixed 8 f.sender.toNat ++ 0x7c :: (hexFixed 8 f.receiver.toNat ++ 0x2c ::
        (decFixed 5 f.part.toNat ++ 0x2c :: (decFixed 5 f.total.toNat ++ 0x2c :: f.payload)))), ?_⟩
    simp [fragText, OTR_FRAGMENT_SUFFIX]
  simp [h1, h2]

/-- A fragment used as example. -/
def exampleFragment : Fragment :=
  ⟨.v4, [0xde, 0xad, 0xbe, 0xef], 0x12345678, 0x100, 3, 65535, ascii "?OTR:AAQD+/=."⟩

theorem exampleFragment_valid : ValidFragment exampleFragment where
  version := .inr ⟨rfl, rfl⟩
  sender := by decide
  receiver := by decide
  part := by decide
  total := by decide
  payload := by decide
  chars := by unfold TextChar; decide +kernel

example (nd : Nat → Bool) : ∃ text, encodeFragment exampleFragment = .ok text ∧
    matchFragment text = true ∧ parseFragment nd text = .ok (some exampleFragment) :=
  C04_fragment_text_roundtrip nd _ exampleFragment_valid

/-- The text is the one the OTR specification prescribes. -/
example : encodeFragment exampleFragment =
    .ok (ascii "?OTR|deadbeef|12345678|00000100,00003,65535,?OTR:AAQD+/=.,") := by decide +kernel

/-! ### C05 -/

theorem fragText_length (f : Fragment) (h : ValidFragment f) :
    (fragText f).length = headerSize f.version + f.payload.length := by
  unfold fragText OTR_FRAGMENT_V3_PREFIX
  rcases h.version with ⟨hv, hi⟩ | ⟨hv, hi⟩
  · simp [hv, headerSize]; omega
  · simp only [hv, if_true, List.length_append, ident_length, hi, headerSize]
    simp
    omega

theorem numberFragments_map (v : Version) (id : Bytes) (s r : UInt32) (t i : Nat) (ps : List Bytes) :
    (∀ f ∈ numberFragments v id s r t i ps, f.version = v ∧ f.identifier = id) := by
  induction ps generalizing i with
  | nil => simp [numberFragments]
  | cons p ps ih =>
    intro f hf
    simp only [numberFragments, List.mem_cons] at hf
    rcases hf with rfl | hf
    · exact ⟨rfl, rfl⟩
    · exact ih _ f hf

/-- Feeding the remaining in-order parts to the OTRv3 assembler. -/
theorem inorder_rest (s r : UInt32) (n : Nat) (hn : n < 65536) (ps : List Bytes) (i : Nat) (c : Bytes)
    (hi : 1 ≤ i) (hin : i + ps.length = n) (hps : ps ≠ [])
    (hne : ∀ p ∈ ps, p ≠ []) (hsz : ∀ p ∈ ps, p.length ≤ 250 * 1024) :
    (feed InOrder.assemble ⟨UInt16.ofNat n, UInt16.ofNat i, c⟩
      (numberFragments .v3 [0, 0, 0, 0] s r n i ps)).1 =
      List.replicate (ps.length - 1) (.err .incompleteResult) ++ [.ok (c ++ ps.flatten)] := by
  induction ps generalizing i c with
  | nil => exact absurd rfl hps
  | cons p ps ih =>
    simp only [List.length_cons] at hin
    have t1 : (UInt16.ofNat i).toNat = i := UInt16.toNat_ofNat_len (by omega)
    have t2 : (UInt16.ofNat (i + 1)).toNat = i + 1 := UInt16.toNat_ofNat_len (by omega)
    have t3 : (UInt16.ofNat n).toNat = n := UInt16.toNat_ofNat_len (by omega)
    have hadd : UInt16.ofNat (i + 1) = UInt16.ofNat i + 1 := by
      apply UInt16.toNat_inj.mp
      rw [UInt16.toNat_add, t1, t2]
      exact (Nat.mod_eq_of_lt (by simp; omega)).symm
    have h1 : UInt16.ofNat (i + 1) ≠ 1 := by
      intro hc
      have := congrArg UInt16.toNat hc
      rw [t2] at this
      simp at this
      omega
    have h2 : UInt16.ofNat i ≠ 65535 := by
      intro hc
      have := congrArg UInt16.toNat hc
      rw [t1] at this
      simp at this
      omega
    let f : Fragment := ⟨.v3, [0, 0, 0, 0], s, r, UInt16.ofNat (i + 1), UInt16.ofNat n, p⟩
    have hv : verifyFragment f = true := by
      rw [verifyFragment_iff]
      refine ⟨fun _ => rfl, ?_, ?_, hne p (by simp), hsz p (by simp)⟩
      · show 1 ≤ (UInt16.ofNat (i + 1)).toNat; omega
      · show (UInt16.ofNat (i + 1)).toNat ≤ (UInt16.ofNat n).toNat; omega
    have hstep : InOrder.assemble ⟨UInt16.ofNat n, UInt16.ofNat i, c⟩ f =
        if ps = [] then (.ok (c ++ p), ⟨UInt16.ofNat n, UInt16.ofNat (i + 1), []⟩)
        else (.err .incompleteResult, ⟨UInt16.ofNat n, UInt16.ofNat (i + 1), c ++ p⟩) := by
      have hc : (UInt16.ofNat (i + 1) = UInt16.ofNat n) ↔ ps = [] := by
        rw [← UInt16.toNat_inj, t2, t3]
        constructor
        · intro h; exact List.length_eq_zero_iff.mp (by omega)
        · intro h; subst h; simp at hin; omega
      unfold InOrder.assemble
      rw [if_neg (by simp [hv])]
      simp only [f]
      rw [if_neg h1, if_pos True.intro, if_neg h2, if_pos hadd]
      simp only [hc]
    simp only [numberFragments, feed]
    rw [show (⟨.v3, [0, 0, 0, 0], s, r, UInt16.ofNat (i + 1), UInt16.ofNat n, p⟩ : Fragment) = f from rfl]
    by_cases hp : ps = []
    · subst hp
      rw [if_pos rfl] at hstep
      rw [hstep]
      simp [numberFragments, feed]
    · rw [if_neg hp] at hstep
      rw [hstep]
      simp only
      rw [ih (i + 1) (c ++ p) (by omega) (by omega) hp (fun q hq => hne q (by simp [hq]))
        (fun q hq => hsz q (by simp [hq]))]
      have : (p :: ps).length - 1 = (ps.length - 1) + 1 := by
        have := List.length_pos_iff.mpr hp
        simp only [List.length_cons]; omega
      rw [this]
      simp [List.replicate_succ]

/-- Feeding all parts in order to the OTRv3 assembler, whatever it held before. -/
theorem inorder_all (s r : UInt32) (ps : List Bytes) (a : InOrder) (hn : ps.length < 65536) (hps : ps ≠ [])
    (hne : ∀ p ∈ ps, p ≠ []) (hsz : ∀ p ∈ ps, p.length ≤ 250 * 1024) :
    (feed InOrder.assemble a (numberFragments .v3 [0, 0, 0, 0] s r ps.length 0 ps)).1 =
      List.replicate (ps.length - 1) (.err .incompleteResult) ++ [.ok ps.flatten] := by
  cases ps with
  | nil => exact absurd rfl hps
  | cons p ps =>
    have t3 : (UInt16.ofNat (ps.length + 1)).toNat = ps.length + 1 := UInt16.toNat_ofNat_len (by simpa using hn)
    let f : Fragment := ⟨.v3, [0, 0, 0, 0], s, r, 1, UInt16.ofNat (ps.length + 1), p⟩
    have hv : verifyFragment f = true := by
      rw [verifyFragment_iff]
      refine ⟨fun _ => rfl, by simp [f], ?_, hne p (by simp), hsz p (by simp)⟩
      show (1 : UInt16).toNat ≤ (UInt16.ofNat (ps.length + 1)).toNat
      rw [t3]; simp
    have hc : ((1 : UInt16) = UInt16.ofNat (ps.length + 1)) ↔ ps = [] := by
      rw [← UInt16.toNat_inj, t3]
      constructor
      · intro h
        have h' : 1 = ps.length + 1 := h
        exact List.length_eq_zero_iff.mp (by omega)
      · intro h; subst h; rfl
    have hstep : InOrder.assemble a f =
        if ps = [] then (.ok p, ⟨UInt16.ofNat (ps.length + 1), 1, []⟩)
        else (.err .incompleteResult, ⟨UInt16.ofNat (ps.length + 1), 1, p⟩) := by
      unfold InOrder.assemble
      rw [if_neg (by simp [hv])]
      simp only [f]
      rw [if_pos True.intro]
      simp only [hc]
    simp only [List.length_cons, numberFragments, feed]
    rw [show (⟨.v3, [0, 0, 0, 0], s, r, UInt16.ofNat (0 + 1), UInt16.ofNat (ps.length + 1), p⟩ : Fragment) = f
      from rfl]
    by_cases hp : ps = []
    · subst hp
      rw [if_pos rfl] at hstep
      rw [hstep]
      simp [numberFragments, feed]
    · rw [if_neg hp] at hstep
      rw [hstep]
      simp only
      have := inorder_rest s r (ps.length + 1) (by simpa using hn) ps 1 p (Nat.le_refl 1) (Nat.add_comm _ _) hp
        (fun q hq => hne q (by simp [hq])) (fun q hq => hsz q (by simp [hq]))
      rw [show UInt16.ofNat 1 = (1 : UInt16) from rfl] at this
      rw [this]
      have : (ps.length + 1 - 1) = (ps.length - 1) + 1 := by
        have := List.length_pos_iff.mpr hp
        omega
      rw [this]
      simp [List.replicate_succ]

theorem feed_v3 (a : Assembler) (fs : List Fragment) (h : ∀ f ∈ fs, f.version = .v3) :
    (feed Assembler.assemble a fs).1 = (feed InOrder.assemble a.inorder fs).1 ∧
      (feed Assembler.assemble a fs).2.inorder = (feed InOrder.assemble a.inorder fs).2 := by
  induction fs generalizing a with
  | nil => exact ⟨rfl, rfl⟩
  | cons f fs ih =>
    have hf := h f (by simp)
    have := ih { a with inorder := (a.inorder.assemble f).2 } (fun g hg => h g (by simp [hg]))
    have e : Assembler.assemble a f = ((a.inorder.assemble f).1, { a with inorder := (a.inorder.assemble f).2 }) := by
      simp [Assembler.assemble, hf]
    simp only [feed, e]
    exact ⟨by rw [this.1], this.2⟩

theorem feed_v4 (a : Assembler) (fs : List Fragment) (h : ∀ f ∈ fs, f.version = .v4) :
    (feed Assembler.assemble a fs).1 = (feed Unordered.assemble a.unordered fs).1 ∧
      (feed Assembler.assemble a fs).2.unordered = (feed Unordered.assemble a.unordered fs).2 := by
  induction fs generalizing a with
  | nil => exact ⟨rfl, rfl⟩
  | cons f fs ih =>
    have hf := h f (by simp)
    have := ih { a with unordered := (a.unordered.assemble f).2 } (fun g hg => h g (by simp [hg]))
    have e : Assembler.assemble a f =
        ((a.unordered.assemble f).1, { a with unordered := (a.unordered.assemble f).2 }) := by
      simp [Assembler.assemble, hf]
    simp only [feed, e]
    exact ⟨by rw [this.1], this.2⟩

theorem numberFragments_eq_map (id : Bytes) (s r : UInt32) (ps : List Bytes) :
    numberFragments .v4 id s r ps.length 0 ps = (List.range ps.length).map (fragmentOf id s r ps) := by
  apply List.ext_getElem?
  intro j
  rw [numberFragments_getElem?, List.getElem?_map]
  by_cases hj : j < ps.length
  · rw [List.getElem?_eq_getElem hj, List.getElem?_range hj]
    simp [fragmentOf, hj]
  · rw [List.getElem?_eq_none (Nat.le_of_not_lt hj), List.getElem?_eq_none (by simpa using hj)]
    rfl

theorem reachable_unordered (hist : List Fragment) (a : Assembler)
    (hn : (a.unordered.store.map Prod.fst).Nodup) (hl : a.unordered.store.length ≤ MAX_MESSAGES) :
    ((feed Assembler.assemble a hist).2.unordered.store.map Prod.fst).Nodup ∧
      (feed Assembler.assemble a hist).2.unordered.store.length ≤ MAX_MESSAGES := by
  induction hist generalizing a with
  | nil => exact ⟨hn, hl⟩
  | cons f hist ih =>
    simp only [feed]
    apply (ih _ _ _)
    all_goals
      unfold Assembler.assemble
      split
      · first | exact hn | exact hl
      · have := Unordered.assemble_inv a.unordered f hn hl
        first | exact this.1 | exact this.2
      · first | exact hn | exact hl

theorem fragmentContent_eq {rnd content : Bytes} {maxSize : Nat} {v : Version} {sender receiver : UInt32}
    (hv : v = .v3 ∨ v = .v4) (hs : headerSize v < maxSize) (hbig : maxSize < content.length)
    (hcount : content.length ≤ 65535 * (maxSize - headerSize v)) :
    fragmentContent rnd maxSize v sender receiver content =
      .ok (numberFragments v (if v = .v4 then rnd else [0, 0, 0, 0]) sender receiver
        (slices (maxSize - headerSize v) content.length content).length 0
        (slices (maxSize - headerSize v) content.length content)) ∧
    (slices (maxSize - headerSize v) content.length content).length < 65536 := by
  have hk : 0 < maxSize - headerSize v := by omega
  have hlen := slices_length hk content.length content (Nat.le_refl _)
  have hlt : content.length / (maxSize - headerSize v) +
      (if content.length % (maxSize - headerSize v) = 0 then 0 else 1) < 65536 := by
    split
    · next h =>
      have : content.length / (maxSize - headerSize v) ≤ 65535 :=
        Nat.div_le_of_le_mul (by rw [Nat.mul_comm]; exact hcount)
      omega
    · next h =>
      have : content.length / (maxSize - headerSize v) < 65535 := by
        apply Nat.div_lt_of_lt_mul
        rcases Nat.lt_or_eq_of_le hcount with h2 | h2
        · rw [Nat.mul_comm]; exact h2
        · rw [h2] at h
          exact absurd (Nat.mul_mod_left _ _) h
      omega
  refine ⟨?_, by rw [hlen]; exact hlt⟩
  rw [hlen]
  unfold fragmentContent
  rcases hv with rfl | rfl
  · simp only [headerSize] at *
    simp only [Res.assert]
    simp [hs, hbig]
    exact ⟨hlt, rfl⟩
  · simp only [headerSize] at *
    simp only [Res.assert]
    simp [hs, hbig]
    exact ⟨hlt, rfl⟩

theorem fragmented (nd : Nat → Bool) {rnd content : Bytes} {maxSize : Nat} {v : Version}
    {sender receiver : UInt32} {fs : List Fragment}
    (hv : v = .v3 ∨ v = .v4) (hrnd : rnd.length = 4)
    (hs : headerSize v < maxSize) (hbig : maxSize < content.length)
    (hcount : content.length ≤ 65535 * (maxSize - headerSize v))
    (hsender : 0x100 ≤ sender.toNat) (hreceiver : receiver = 0 ∨ 0x100 ≤ receiver.toNat)
    (hchars : ∀ b ∈ content, TextChar b)
    (hok : fragmentContent rnd maxSize v sender receiver content = .ok fs) :
    Fragmented nd maxSize content fs := by
  obtain ⟨heq, hlt⟩ := fragmentContent_eq (rnd := rnd) (sender := sender) (receiver := receiver) hv hs hbig hcount
  rw [heq, Res.ok.injEq] at hok
  have hk : 0 < maxSize - headerSize v := by omega
  have hmem := slices_mem hk content.length content
  have hflat := slices_flatten hk content.length content (Nat.le_refl _)
  have hlen2 : 2 ≤ (slices (maxSize - headerSize v) content.length content).length := by
    rw [slices_length hk _ _ (Nat.le_refl _)]
    have h1 : 1 ≤ content.length / (maxSize - headerSize v) := by
      rw [Nat.le_div_iff_mul_le hk]; omega
    split
    · next h0 =>
      have hd := Nat.div_add_mod content.length (maxSize - headerSize v)
      rw [h0] at hd
      rcases Nat.lt_or_ge 1 (content.length / (maxSize - headerSize v)) with h2 | h2
      · omega
      · have : content.length / (maxSize - headerSize v) = 1 := by omega
        rw [this] at hd
        omega
    · omega
  generalize slices (maxSize - headerSize v) content.length content = ps at *
  subst hok
  have hget := fun j => numberFragments_getElem? v (if v = .v4 then rnd else [0, 0, 0, 0]) sender receiver ps.length 0 ps j
  have hnum : ∀ j f, (numberFragments v (if v = .v4 then rnd else [0, 0, 0, 0]) sender receiver ps.length 0 ps)[j]? =
      some f → f.part.toNat = j + 1 ∧ f.total.toNat = ps.length ∧ f.payload ∈ ps ∧ f.sender = sender ∧
        f.receiver = receiver := by
    intro j f hf
    rw [hget, Option.map_eq_some_iff] at hf
    obtain ⟨p, hp, rfl⟩ := hf
    have hj : j < ps.length := (List.getElem?_eq_some_iff.mp hp).1
    refine ⟨?_, ?_, List.mem_of_getElem? hp, rfl, rfl⟩
    · show (UInt16.ofNat (0 + j + 1)).toNat = j + 1
      rw [UInt16.toNat_ofNat_len (by omega)]; omega
    · exact UInt16.toNat_ofNat_len (by omega)
  exact {
    count := by rw [numberFragments_length]; exact hlen2
    numbered := fun j f hf => by
      have := hnum j f hf
      rw [numberFragments_length]
      exact ⟨this.1, this.2.1⟩
    fits := by
      intro f hf
      have hvi := numberFragments_map _ _ _ _ _ _ _ f hf
      obtain ⟨j, hj⟩ := List.getElem?_of_mem hf
      obtain ⟨h1, h2, h3, h4, h5⟩ := hnum j f hj
      have hjl : j < ps.length := by
        have := (List.getElem?_eq_some_iff.mp hj).1
        rwa [numberFragments_length] at this
      obtain ⟨m1, m2, m3⟩ := hmem _ h3
      have hvalid : ValidFragment f := {
        version := by
          rcases hv with rfl | rfl
          · left; exact ⟨hvi.1, by rw [hvi.2]; rfl⟩
          · right; exact ⟨hvi.1, by rw [hvi.2]; simpa using hrnd⟩
        sender := by rw [h4]; exact hsender
        receiver := by rw [h5]; exact hreceiver
        part := by omega
        total := by omega
        payload := m1
        chars := fun b hb => hchars b (m3 b hb) }
      obtain ⟨text, e1, e2, e3⟩ := C04_fragment_text_roundtrip nd f hvalid
      refine ⟨text, e1, ?_, e2, e3⟩
      rw [encodeFragment_valid hvalid, Res.ok.injEq] at e1
      rw [← e1, fragText_length f hvalid, hvi.1]
      omega
    carries := by
      have : (numberFragments v (if v = .v4 then rnd else [0, 0, 0, 0]) sender receiver ps.length 0 ps).map
          (·.payload) = ps := by
        apply List.ext_getElem?
        intro j
        rw [List.getElem?_map, hget, Option.map_map]
        show Option.map id _ = _
        simp
      rw [this]
      exact hflat }

/-- C05, OTRv3: fragmentation succeeds, every fragment fits, and the receiver (whatever it held before)
gets the content with the last fragment. -/
theorem C05_fragmentation_v3 (nd : Nat → Bool) (rnd content : Bytes) (maxSize : Nat) (sender receiver : UInt32)
    (hrnd : rnd.length = 4)
    (hs : 36 < maxSize) (hbig : maxSize < content.length)
    (hcount : content.length ≤ 65535 * (maxSize - 36)) (hpiece : maxSize - 36 ≤ 250 * 1024)
    (hsender : 0x100 ≤ sender.toNat) (hreceiver : receiver = 0 ∨ 0x100 ≤ receiver.toNat)
    (hchars : ∀ b ∈ content, TextChar b) :
    ∃ fs, fragmentContent rnd maxSize .v3 sender receiver content = .ok fs ∧
      Fragmented nd maxSize content fs ∧
      ∀ a : Assembler, (feed Assembler.assemble a fs).1 =
        List.replicate (fs.length - 1) (.err .incompleteResult) ++ [.ok content] := by
  obtain ⟨heq, hlt⟩ := fragmentContent_eq (rnd := rnd) (sender := sender) (receiver := receiver)
    (v := .v3) (.inl rfl) hs hbig hcount
  refine ⟨_, heq, fragmented nd (.inl rfl) hrnd hs hbig hcount hsender hreceiver hchars heq, ?_⟩
  intro a
  have hk : 0 < maxSize - 36 := by omega
  have hmem := slices_mem hk content.length content
  have hflat := slices_flatten hk content.length content (Nat.le_refl _)
  simp only [headerSize] at *
  rw [if_neg (by decide)]
  rw [(feed_v3 a _ (fun f hf => (numberFragments_map _ _ _ _ _ _ _ f hf).1)).1]
  have hne : slices (maxSize - 36) content.length content ≠ [] := by
    intro hc
    rw [hc] at hflat
    simp at hflat
    rw [hflat] at hbig
    simp at hbig
  rw [inorder_all _ _ _ _ hlt hne (fun p hp => (hmem p hp).1)
    (fun p hp => Nat.le_trans (hmem p hp).2.1 hpiece), hflat, numberFragments_length]

example (nd : Nat → Bool) : ∃ fs,
    fragmentContent [1, 2, 3, 4] 40 .v3 0x100 0 (List.replicate 90 65) = .ok fs ∧
      Fragmented nd 40 (List.replicate 90 65) fs ∧
      ∀ a : Assembler, (feed Assembler.assemble a fs).1 =
        List.replicate (fs.length - 1) (.err .incompleteResult) ++ [.ok (List.replicate 90 65)] :=
  C05_fragmentation_v3 nd [1, 2, 3, 4] (List.replicate 90 65) 40 0x100 0 rfl (by decide) (by decide) (by decide)
    (by decide) (by decide) (.inl rfl) (by unfold TextChar; decide)

/-- C05, OTRv4: as for OTRv3; the receiver must have room for one more message and not hold parts under the
same (random) identifier, and content is at most 100 MiB. -/
theorem C05_fragmentation_v4 (nd : Nat → Bool) (rnd content : Bytes) (maxSize : Nat) (sender receiver : UInt32)
    (hrnd : rnd.length = 4)
    (hs : 45 < maxSize) (hbig : maxSize < content.length)
    (hcount : content.length ≤ 65535 * (maxSize - 45)) (hpiece : maxSize - 45 ≤ 250 * 1024)
    (hmax : content.length ≤ 100 * 1024 * 1024)
    (hsender : 0x100 ≤ sender.toNat) (hreceiver : receiver = 0 ∨ 0x100 ≤ receiver.toNat)
    (hchars : ∀ b ∈ content, TextChar b) :
    ∃ fs, fragmentContent rnd maxSize .v4 sender receiver content = .ok fs ∧
      Fragmented nd maxSize content fs ∧
      ∀ a : Assembler, ReachableAssembler a → a.unordered.store.length < 100 →
        rnd ∉ a.unordered.store.map Prod.fst → a.unordered.tick.toNat + fs.length < 2 ^ 32 →
        (feed Assembler.assemble a fs).1 =
          List.replicate (fs.length - 1) (.err .incompleteResult) ++ [.ok content] := by
  obtain ⟨heq, hlt⟩ := fragmentContent_eq (rnd := rnd) (sender := sender) (receiver := receiver)
    (v := .v4) (.inr rfl) hs hbig hcount
  refine ⟨_, heq, fragmented nd (.inr rfl) hrnd hs hbig hcount hsender hreceiver hchars heq, ?_⟩
  rintro a ⟨hist, ha⟩ hroom hfresh htick
  have hk : 0 < maxSize - 45 := by omega
  have hmem := slices_mem hk content.length content
  have hflat := slices_flatten hk content.length content (Nat.le_refl _)
  have hnd : (a.unordered.store.map Prod.fst).Nodup := by
    rw [ha]
    exact (reachable_unordered hist Assembler.new (by simp [Assembler.new, Unordered.new])
      (by simp [Assembler.new, Unordered.new])).1
  simp only [headerSize] at *
  rw [if_pos trivial] at htick ⊢
  rw [(feed_v4 a _ (fun f hf => (numberFragments_map _ _ _ _ _ _ _ f hf).1)).1]
  have hne : slices (maxSize - 45) content.length content ≠ [] := by
    intro hc
    rw [hc] at hflat
    simp at hflat
    rw [hflat] at hbig
    simp at hbig
  generalize slices (maxSize - 45) content.length content = ps at *
  have hsum : (ps.map List.length).sum ≤ MAX_MESSAGE_SIZE := by
    rw [← List.length_flatten, hflat]
    exact hmax
  have hids := Unordered.feed_own rnd sender receiver ps (rnd :: a.unordered.store.map Prod.fst)
    (by simp [MAX_MESSAGES]; omega) (by simp) hlt (fun p hp => (hmem p hp).1)
    (fun p hp => Nat.le_trans (hmem p hp).2.1 hpiece) hsum
    (numberFragments .v4 rnd sender receiver ps.length 0 ps) a.unordered (List.range ps.length) hnd
    (fun k hk => by simp [hk])
    (fun f hf => by rw [(numberFragments_map _ _ _ _ _ _ _ f hf).2]; simp)
    htick List.nodup_range (fun j hj => by simpa using hj)
    (by
      rw [List.filter_eq_self.mpr]
      · exact numberFragments_eq_map _ _ _ _
      · intro f hf
        simpa using (numberFragments_map _ _ _ _ _ _ _ f hf).2)
    (by
      intro _
      have : lookup a.unordered.store rnd = .none := by
        cases h : lookup a.unordered.store rnd with
        | none => rfl
        | some e =>
          have := (lookup_isSome_iff a.unordered.store rnd).mp (by rw [h]; rfl)
          exact absurd this hfresh
      rw [this, maskParts_all (by simp)]
      rfl)
  have hr : List.range ps.length ≠ [] := by
    intro hc
    have := congrArg List.length hc
    simp at this
    exact hne this
  rw [if_neg hr] at hids
  have hown : ∀ outs : List AsmRes, outs.length = (numberFragments .v4 rnd sender receiver ps.length 0 ps).length →
      ownOutcomes rnd (numberFragments .v4 rnd sender receiver ps.length 0 ps) outs = outs := by
    intro outs ho
    unfold ownOutcomes
    rw [List.filter_eq_self.mpr]
    · exact List.map_snd_zip (by omega)
    · rintro ⟨f, r⟩ hf
      have hf' := (List.of_mem_zip hf).1
      simpa using (numberFragments_map _ _ _ _ _ _ _ f hf').2
  rw [hown _ (feed_length _ _ _)] at hids
  rw [hids, hflat, numberFragments_length]
  simp

example (nd : Nat → Bool) : ∃ fs,
    fragmentContent [1, 2, 3, 4] 50 .v4 0x100 0 (List.replicate 90 65) = .ok fs ∧
      Fragmented nd 50 (List.replicate 90 65) fs ∧
      (feed Assembler.assemble Assembler.new fs).1 =
        List.replicate (fs.length - 1) (.err .incompleteResult) ++ [.ok (List.replicate 90 65)] := by
  obtain ⟨fs, h1, h2, h3⟩ := C05_fragmentation_v4 nd [1, 2, 3, 4] (List.replicate 90 65) 50 0x100 0 rfl (by decide)
    (by decide) (by decide) (by decide) (by decide) (by decide) (.inl rfl) (by unfold TextChar; decide)
  refine ⟨fs, h1, h2, h3 Assembler.new ⟨[], rfl⟩ (by decide) (by decide) ?_⟩
  have : fragmentContent [1, 2, 3, 4] 50 .v4 0x100 0 (List.replicate 90 65) = .ok fs → fs.length = 18 := by
    intro h
    have e : (match fragmentContent [1, 2, 3, 4] 50 .v4 0x100 0 (List.replicate 90 65) with
      | .ok fs => fs.length | _ => 0) = 18 := by decide +kernel
    rw [h] at e
    exact e
  rw [this h1]
  decide

/-! ### C06 -/

/-- C06: the parts of one OTRv4 message (identifier `id`), delivered in any order `js` and interleaved
with arbitrary fragments of other messages, give 'incomplete' for every part but the last to arrive, and
then exactly the original content.  The history may start in any state the assembler can reach in which
nothing is stored under `id`; at most 100 messages are in play (more would be evicted). -/
theorem C06_any_order (id : Bytes) (sender receiver : UInt32) (pieces : List Bytes) (js : List Nat)
    (a : Unordered) (hist : List Fragment) (ids : List Bytes)
    (hreach : ∃ before, a = (feed Unordered.assemble Unordered.new before).2)
    (hfresh : id ∉ a.store.map Prod.fst)
    (hn : pieces.length < 65536) (hne : ∀ p ∈ pieces, p ≠ []) (hsz : ∀ p ∈ pieces, p.length ≤ 250 * 1024)
    (hsum : pieces.flatten.length ≤ 100 * 1024 * 1024)
    (hperm : js.Perm (List.range pieces.length)) (hpos : pieces ≠ [])
    (hown : hist.filter (fun f => decide (f.identifier = id)) = js.map (fragmentOf id sender receiver pieces))
    (hids : ids.length ≤ 100) (hid : id ∈ ids) (hstored : ∀ k ∈ a.store.map Prod.fst, k ∈ ids)
    (hothers : ∀ f ∈ hist, f.identifier ∈ ids)
    (htick : a.tick.toNat + hist.length < 2 ^ 32) :
    ((hist.zip (feed Unordered.assemble a hist).1).filter fun e => decide (e.1.identifier = id)).map (·.2) =
      List.replicate (pieces.length - 1) (.err .incompleteResult) ++ [.ok pieces.flatten] := by
  obtain ⟨before, ha⟩ := hreach
  have hnd : (a.store.map Prod.fst).Nodup := by
    rw [ha]
    exact (Unordered.feed_inv before Unordered.new (by simp [Unordered.new]) (by simp [Unordered.new])).1
  have hl := hperm.length_eq
  simp at hl
  have hjne : js ≠ [] := by
    intro hc
    rw [hc] at hl
    simp at hl
    exact hpos (List.length_eq_zero_iff.mp hl.symm)
  have := Unordered.feed_own id sender receiver pieces ids hids hid hn hne hsz
    (by rw [← List.length_flatten]; exact hsum) hist a js hnd hstored hothers htick
    (hperm.nodup_iff.mpr List.nodup_range) (fun j hj => by simpa using hperm.mem_iff.mp hj) hown
    (by
      intro _
      have : lookup a.store id = .none := by
        cases h : lookup a.store id with
        | none => rfl
        | some e => exact absurd ((lookup_isSome_iff a.store id).mp (by rw [h]; rfl)) hfresh
      rw [this, maskParts_all (fun i hi => hperm.mem_iff.mpr (by simpa using hi))]
      rfl)
  rw [if_neg hjne, hl] at this
  exact this

/-- Non-vacuity of C06: three parts in the order 3, 1, 2 with a foreign fragment in between. -/
example :
    let pieces : List Bytes := [ascii "ab", ascii "cd", ascii "e"]
    let fr := fragmentOf [1, 2, 3, 4] 0x100 0x101 pieces
    let other := fragmentOf [9, 9, 9, 9] 0x100 0x101 [ascii "x", ascii "y"] 1
    let hist := [fr 2, other, fr 0, fr 1]
    ((hist.zip (feed Unordered.assemble Unordered.new hist).1).filter
        fun e => decide (e.1.identifier = [1, 2, 3, 4])).map (·.2) =
      List.replicate 2 (.err .incompleteResult) ++ [.ok (ascii "abcde")] := by
  intro pieces fr other hist
  exact C06_any_order [1, 2, 3, 4] 0x100 0x101 pieces [2, 0, 1] Unordered.new hist
    [[1, 2, 3, 4], [9, 9, 9, 9]] ⟨[], rfl⟩ (by decide) (by decide) (by decide) (by decide) (by decide)
    (by decide) (by decide) (by decide +kernel) (by decide) (by decide) (by decide) (by decide +kernel)
    (by decide)

/-! ### C07 -/

/-- C07: after any history of well-formed fragments, the OTRv3 assembler delivers `m` for the next one
exactly when the most recent fragments are the parts 1..n of n and `m` is their concatenation. -/
theorem C07_in_order_only (hist : List Fragment) (f : Fragment) (m : Bytes)
    (hw : ∀ g ∈ hist, WellFormed g) (hf : WellFormed f)
    (hnp : AsmRes.panic ∉ (feed InOrder.assemble InOrder.new hist).1) :
    ((feed InOrder.assemble InOrder.new hist).2.assemble f).1 = .ok m ↔ JustCompleted (hist ++ [f]) m :=
  (InOrder.step _ hist f (InOrder.feed_inv hist hw hnp) hf).2 m

/-- C07: ill-formed fragments have no effect at all. -/
theorem C07_ill_formed_ignored (a : InOrder) (f : Fragment) (h : ¬ WellFormed f) :
    a.assemble f = (.err .invalidData, a) := by
  rw [wellFormed_iff] at h
  unfold InOrder.assemble
  simp [h]

/-- C07: the OTRv3 assembler cannot panic as long as no message claims 65535 parts. -/
theorem C07_no_panic_partial (hist : List Fragment) (hw : ∀ g ∈ hist, WellFormed g)
    (hn : ∀ g ∈ hist, g.total.toNat < 65535) :
    AsmRes.panic ∉ (feed InOrder.assemble InOrder.new hist).1 := by
  have key : ∀ (hist : List Fragment) (a : InOrder), a.last.toNat < 65535 → (∀ g ∈ hist, WellFormed g) →
      (∀ g ∈ hist, g.total.toNat < 65535) → AsmRes.panic ∉ (feed InOrder.assemble a hist).1 := by
    intro hist
    induction hist with
    | nil => intros; simp [feed]
    | cons f hist ih =>
      intro a ha hw hn
      have hwf := hw f (by simp)
      have hv := (wellFormed_iff f).mp hwf
      have hp := hwf.total
      have hnf := hn f (by simp)
      have hlast : a.last ≠ 65535 := by
        intro hc; rw [hc] at ha; simp at ha
      have hstep : (a.assemble f).1 ≠ .panic ∧ (a.assemble f).2.last.toNat < 65535 := by
        unfold InOrder.assemble
        simp only [hv, Bool.not_true, Bool.false_eq_true, if_false, hlast]
        repeat' split
        all_goals refine ⟨by simp, ?_⟩
        all_goals first
          | (show (1 : UInt16).toNat < 65535; decide)
          | (show (0 : UInt16).toNat < 65535; decide)
          | (show f.part.toNat < 65535; omega)
          | exact ha
      simp only [feed, List.mem_cons, not_or]
      refine ⟨fun h => hstep.1 h.symm, ?_⟩
      exact ih _ hstep.2 (fun g hg => hw g (by simp [hg])) (fun g hg => hn g (by simp [hg]))
  exact key hist InOrder.new (by decide) hw hn

/-- The full panic-freedom statement is false: after a message of 65535 parts was completed, part 2 of
another message of 65535 parts overflows the part counter. -/
theorem C07_panic_after_65535_parts (s r : UInt32) (p : Bytes) (hp : p ≠ []) (hl : p.length ≤ 250 * 1024) :
    ∃ hist, (∀ g ∈ hist, WellFormed g) ∧ AsmRes.panic ∈ (feed InOrder.assemble InOrder.new hist).1 := by
  let ps : List Bytes := List.replicate 65535 p
  have hlen : ps.length = 65535 := List.length_replicate
  have hmem : ∀ q ∈ ps, q = p := fun q hq => List.eq_of_mem_replicate hq
  let fs := numberFragments .v3 [0, 0, 0, 0] s r ps.length 0 ps
  let f : Fragment := ⟨.v3, [0, 0, 0, 0], s, r, 2, 65535, p⟩
  have hwf : ∀ g ∈ fs, WellFormed g := by
    intro g hg
    obtain ⟨j, hj⟩ := List.getElem?_of_mem hg
    rw [numberFragments_getElem?, Option.map_eq_some_iff] at hj
    obtain ⟨q, hq, rfl⟩ := hj
    have hjl : j < ps.length := (List.getElem?_eq_some_iff.mp hq).1
    have hqp := hmem q (List.mem_of_getElem? hq)
    have t1 : (UInt16.ofNat (0 + j + 1)).toNat = j + 1 := by
      rw [UInt16.toNat_ofNat_len (by omega)]; omega
    have t2 : (UInt16.ofNat ps.length).toNat = 65535 := by rw [hlen]; decide
    exact {
      ident := fun _ => rfl
      part := by show 1 ≤ (UInt16.ofNat (0 + j + 1)).toNat; omega
      total := by show (UInt16.ofNat (0 + j + 1)).toNat ≤ (UInt16.ofNat ps.length).toNat; omega
      payload := by show q ≠ []; rw [hqp]; exact hp
      size := by show q.length ≤ _; rw [hqp]; exact hl }
  refine ⟨fs ++ [f], ?_, ?_⟩
  · intro g hg
    rcases List.mem_append.mp hg with hg | hg
    · exact hwf g hg
    · simp at hg
      subst hg
      exact { ident := fun _ => rfl, part := by simp [f], total := by simp [f], payload := hp, size := hl }
  · have hps : ps ≠ [] := by
      intro hc; rw [hc] at hlen; simp at hlen
    have hout := inorder_all s r ps InOrder.new (by rw [hlen]; decide) hps
      (fun q hq => by rw [hmem q hq]; exact hp) (fun q hq => by rw [hmem q hq]; exact hl)
    have hnp : AsmRes.panic ∉ (feed InOrder.assemble InOrder.new fs).1 := by
      rw [show fs = numberFragments .v3 [0, 0, 0, 0] s r ps.length 0 ps from rfl, hout]
      simp [List.mem_replicate]
    have hinv := InOrder.feed_inv fs hwf hnp
    have hfp : FirstParts fs 65535 := by
      intro i g hg
      rw [numberFragments_getElem?, Option.map_eq_some_iff] at hg
      obtain ⟨q, hq, rfl⟩ := hg
      have hjl : i < ps.length := (List.getElem?_eq_some_iff.mp hq).1
      refine ⟨?_, ?_⟩
      · show (UInt16.ofNat (0 + i + 1)).toNat = i + 1
        rw [UInt16.toNat_ofNat_len (by omega)]; omega
      · show (UInt16.ofNat ps.length).toNat = 65535
        rw [hlen]; decide
    have hfl : fs.length = 65535 := by rw [numberFragments_length, hlen]
    have hfne : fs ≠ [] := by intro hc; rw [hc] at hfl; simp at hfl
    have hstate : (feed InOrder.assemble InOrder.new fs).2.last.toNat = 65535 ∧
        (feed InOrder.assemble InOrder.new fs).2.total.toNat = 65535 := by
      rcases hinv with ⟨-, h⟩ | ⟨pre, run, n, g1, g2, g3, g4, g5, -⟩
      · exact absurd hfp (h [] fs 65535 rfl hfne)
      · obtain ⟨e1, e2⟩ := firstParts_unique (pre := []) (run := fs) g1 hfp g3 hfne g2
        rw [← e1] at g4
        exact ⟨by omega, by omega⟩
    rw [feed_append]
    apply List.mem_append_right
    generalize (feed InOrder.assemble InOrder.new fs).2 = a at hstate ⊢
    obtain ⟨h1, h2⟩ := hstate
    have e1 : a.last = 65535 := UInt16.toNat_inj.mp (by rw [h1]; rfl)
    have e2 : a.total = 65535 := UInt16.toNat_inj.mp (by rw [h2]; rfl)
    have hv : verifyFragment f = true :=
      (wellFormed_iff f).mp { ident := fun _ => rfl, part := by simp [f], total := by simp [f], payload := hp, size := hl }
    have : (a.assemble f).1 = .panic := by
      unfold InOrder.assemble
      simp [hv, e1, e2, f]
    simp [feed, this]

example : JustCompleted
    ([⟨.v3, [0, 0, 0, 0], 0x100, 0x101, 2, 3, [9]⟩, ⟨.v3, [0, 0, 0, 0], 0x100, 0x101, 1, 2, [7]⟩] ++
      [⟨.v3, [0, 0, 0, 0], 0x100, 0x101, 2, 2, [8]⟩]) [7, 8] :=
  (C07_in_order_only _ _ _ (by
    intro g hg
    simp at hg
    rcases hg with rfl | rfl <;>
      exact ⟨fun _ => rfl, by decide, by decide, by decide, by decide⟩)
    ⟨fun _ => rfl, by decide, by decide, by decide, by decide⟩ (by decide +kernel)).mp (by decide +kernel)

/-! ### C08 -/

/-- C08: whatever fragments arrive, the OTRv4 assembler never holds more than 100 incomplete messages. -/
theorem C08_bounded (hist : List Fragment) :
    (feed Assembler.assemble Assembler.new hist).2.unordered.store.length ≤ 100 :=
  (reachable_unordered hist Assembler.new (by simp [Assembler.new, Unordered.new])
    (by simp [Assembler.new, Unordered.new])).2

/-- C08: its assertions hold: in any reachable state it can only panic by overflowing the 32-bit
fragment counter. -/
theorem C08_assertions_hold (hist : List Fragment) (f : Fragment)
    (h : ((feed Unordered.assemble Unordered.new hist).2.assemble f).1 = .panic) :
    (feed Unordered.assemble Unordered.new hist).2.tick = 0xffffffff :=
  Unordered.assemble_panic _ f
    (Unordered.feed_inv hist Unordered.new (by simp [Unordered.new]) (by simp [Unordered.new])).2 h

/-- The bound is tight: 100 incomplete messages are held. -/
example : (feed Assembler.assemble Assembler.new ((List.range 100).map fun i =>
    fragmentOf (beBytes 4 i) 0x100 0x101 [[1], [2]] 0)).2.unordered.store.length = 100 := by decide +kernel

/-! ### C09 -/

/-- C09 is false: a fragment text with a part number above 65535 makes the parser panic. -/
theorem C09_violated (nd : Nat → Bool) : ∃ text, matchFragment text = true ∧ parseFragment nd text = .panic :=
  ⟨ascii "?OTR|00000100|00000100,99999,99999,a,", by decide +kernel, by rfl⟩

/-- C09 is false also for numbers written with non-ASCII digits (here U+0661). -/
theorem C09_violated_unicode (nd : Nat → Bool) (h : nd 0x661 = true) :
    ∃ text, matchFragment text = true ∧ parseFragment nd text = .panic := by
  refine ⟨ascii "?OTR|00000100|00000100," ++ [0xd9, 0xa1] ++ ascii ",00001,a,", by decide +kernel, ?_⟩
  have h1 : digitTok nd ([0xd9, 0xa1] ++ ascii ",00001,a,") = some ([0xd9, 0xa1], ascii ",00001,a,") := by
    have e : ([0xd9, 0xa1] ++ ascii ",00001,a,") = (0xd9 : UInt8) :: 0xa1 :: ascii ",00001,a," := rfl
    rw [e]
    simp only [digitTok]
    rw [if_neg (by decide), if_pos]
    rw [Bool.and_eq_true]
    exact ⟨by decide, h⟩
  have h2 : numField nd ([0xd9, 0xa1] ++ ascii ",00001,a,") = some ([0xd9, 0xa1], ascii "00001,a,") := by
    unfold numField digitRun
    rw [h1]
    rfl
  have h3 : fragV3At nd (ascii "?OTR|00000100|00000100," ++ [0xd9, 0xa1] ++ ascii ",00001,a,") =
      some ⟨[], ascii "00000100", ascii "00000100", [0xd9, 0xa1], ascii "00001", ascii "a"⟩ := by
    unfold fragV3At fragTail
    have e1 : lit OTR_FRAGMENT_V3_PREFIX (ascii "?OTR|00000100|00000100," ++ [0xd9, 0xa1] ++ ascii ",00001,a,") =
        some (ascii "00000100|00000100," ++ [0xd9, 0xa1] ++ ascii ",00001,a,") := by decide +kernel
    have e2 : hexField 1 8 0x7c (ascii "00000100|00000100," ++ [0xd9, 0xa1] ++ ascii ",00001,a,") =
        some (ascii "00000100", ascii "00000100," ++ [0xd9, 0xa1] ++ ascii ",00001,a,") := by decide +kernel
    have e3 : hexField 1 8 0x2c (ascii "00000100," ++ [0xd9, 0xa1] ++ ascii ",00001,a,") =
        some (ascii "00000100", [0xd9, 0xa1] ++ ascii ",00001,a,") := by decide +kernel
    simp only [bind, e1, e2, e3, h2, Option.bind_some]
    rfl
  have h4 : firstMatch (fragV4At nd) (ascii "?OTR|00000100|00000100," ++ [0xd9, 0xa1] ++ ascii ",00001,a,") =
      .none := by
    apply firstMatch_none
    intro t ht
    cases hm : fragV4At nd t with
    | none => rfl
    | some c =>
      have := fragV4At_bars hm
      have hle := ht.sublist.count_le (0x7c : UInt8)
      have : (ascii "?OTR|00000100|00000100," ++ [0xd9, 0xa1] ++ ascii ",00001,a,").count 0x7c = 2 := by
        decide +kernel
      omega
  unfold parseFragment
  rw [h4, firstMatch_head h3]
  rfl

theorem digitRun_ascii (nd : Nat → Bool) (n : Nat) (s run r : Bytes) (hs : ∀ b ∈ s, b < 0x80)
    (h : digitRun nd n s = (run, r)) :
    s = run ++ r ∧ run.length ≤ n ∧ ∀ b ∈ run, isDigit b = true := by
  induction n generalizing s run r with
  | zero => simp [digitRun] at h; obtain ⟨rfl, rfl⟩ := h; simp
  | succ n ih =>
    cases s with
    | nil => simp [digitRun, digitTok] at h; obtain ⟨rfl, rfl⟩ := h; simp
    | cons b s =>
      by_cases hb : isDigit b = true
      · simp only [digitRun, digitTok_digit nd hb] at h
        generalize hr : digitRun nd n s = q at h
        obtain ⟨ts, r'⟩ := q
        simp only [List.cons_append, List.nil_append, Prod.mk.injEq] at h
        obtain ⟨rfl, rfl⟩ := h
        obtain ⟨h1, h2, h3⟩ := ih s ts r' (fun x hx => hs x (by simp [hx])) hr
        refine ⟨by rw [h1]; rfl, by simpa using h2, ?_⟩
        intro x hx
        rcases List.mem_cons.mp hx with rfl | hx
        · exact hb
        · exact h3 x hx
      · have : digitTok nd (b :: s) = .none :=
          digitTok_low nd (by simpa using hb) (UInt8.lt_trans (hs b (by simp)) (by decide)) s
        simp only [digitRun, this, Prod.mk.injEq] at h
        obtain ⟨rfl, rfl⟩ := h
        simp

theorem decNat_lt (s : Bytes) (h : ∀ b ∈ s, isDigit b = true) : decNat s < 10 ^ s.length := by
  have key : ∀ l : Bytes, (∀ b ∈ l.reverse, isDigit b = true) → decNat l.reverse < 10 ^ l.reverse.length := by
    intro l
    induction l with
    | nil => intro _; decide
    | cons b l ih =>
      intro hl
      rw [List.reverse_cons] at hl ⊢
      rw [decNat_append_singleton]
      have := ih (fun x hx => hl x (by simp [hx]))
      have hb := hl b (by simp)
      have hb' : b.toNat ≤ 0x39 := by
        simp only [isDigit, Bool.and_eq_true, decide_eq_true_eq, UInt8.le_iff_toNat_le] at hb
        exact hb.2
      simp only [List.length_append, List.length_singleton, Nat.pow_succ] at this ⊢
      omega
  simpa using key s.reverse (by simpa using h)

theorem isDigit_iff (b : UInt8) : isDigit b = true ↔ 48 ≤ b.toNat ∧ b.toNat ≤ 57 := by
  simp [isDigit, UInt8.le_iff_toNat_le]

/-- C09, what does hold: a text that consists of ASCII characters and contains no five digits in a row
whose value exceeds 65535 never makes the parser panic.  Missing for the full property: exactly the
inputs of `C09_violated` and `C09_violated_unicode`. -/
theorem C09_no_panic_partial (nd : Nat → Bool) (text : Bytes)
    (hascii : ∀ b ∈ text, b < 0x80)
    (hnum : ∀ pre w post, text = pre ++ w ++ post → w.length = 5 →
      (∀ b ∈ w, 48 ≤ b.toNat ∧ b.toNat ≤ 57) → decimal w ≤ 65535) :
    parseFragment nd text ≠ .panic := by
  have hfield : ∀ pre s run r, text = pre ++ s → numField nd s = some (run, r) →
      parseU16 run ≠ .panic ∧ ∃ pre', text = pre' ++ r := by
    intro pre s run r he h
    unfold numField at h
    generalize hq : digitRun nd 5 s = q at h
    obtain ⟨run', r'⟩ := q
    simp only at h
    split at h
    · simp at h
    · simp only [Option.map_eq_some_iff, Prod.mk.injEq] at h
      obtain ⟨r'', h1, rfl, rfl⟩ := h
      rw [lit_eq_some] at h1
      obtain ⟨h2, h3, h4⟩ := digitRun_ascii nd 5 s run' r'
        (fun b hb => hascii b (by rw [he]; simp [hb])) hq
      refine ⟨?_, pre ++ run' ++ [0x2c], by rw [he, h2, h1]; simp⟩
      unfold parseU16
      have hall : run'.all isDigit = true := List.all_eq_true.mpr h4
      have hlt : decNat run' < 65536 := by
        by_cases hl : run'.length = 5
        · have := hnum pre run' r' (by rw [he, h2]; simp) hl (fun b hb => (isDigit_iff b).mp (h4 b hb))
          have hd : decimal run' = decNat run' := rfl
          omega
        · have := decNat_lt run' h4
          have h5 : run'.length ≤ 4 := by omega
          have := Nat.pow_le_pow_right (n := 10) (by decide) h5
          omega
      simp [hall, hlt]
  have htail : ∀ pre s ident c, text = pre ++ s → fragTail nd ident s = some c →
      ∀ v, fragFromCaptures v c ≠ .panic := by
    intro pre s ident c he h v
    unfold fragTail at h
    simp only [bind, Option.bind_eq_some_iff, pure, Option.some.injEq] at h
    obtain ⟨⟨sn, s1⟩, h1, ⟨rc, s2⟩, h2, ⟨pt, s3⟩, h3, ⟨tt, s4⟩, h4, ⟨pl, s5⟩, h5, rfl⟩ := h
    obtain ⟨e1, -⟩ := hexField_some h1
    obtain ⟨e2, -⟩ := hexField_some h2
    simp only at e1 e2 h3 h4
    obtain ⟨g1, pre3, e3⟩ := hfield (pre ++ sn ++ [0x7c] ++ rc ++ [0x2c]) s2 pt s3
      (by rw [he, e1, e2]; simp) h3
    obtain ⟨g2, -⟩ := hfield pre3 s3 tt s4 e3 h4
    unfold fragFromCaptures
    intro hc
    simp only [Res.bind_eq_panic] at hc
    rcases hc with hc | ⟨_, _, hc | ⟨_, _, hc⟩⟩
    · exact g1 hc
    · exact g2 hc
    · split at hc <;> simp at hc
  unfold parseFragment
  split
  · next c hm =>
    obtain ⟨t, ⟨pre, ht⟩, hm⟩ := firstMatch_some hm
    unfold fragV4At at hm
    simp only [bind, Option.bind_eq_some_iff] at hm
    obtain ⟨s1, h1, ⟨i, s2⟩, h2, h3⟩ := hm
    rw [lit_eq_some] at h1
    obtain ⟨e2, -⟩ := hexField_some h2
    exact htail (pre ++ OTR_FRAGMENT_V3_PREFIX ++ i ++ [0x7c]) s2 i c (by rw [← ht, h1, e2]; simp) h3 _
  · split
    · next c hm =>
      obtain ⟨t, ⟨pre, ht⟩, hm⟩ := firstMatch_some hm
      unfold fragV3At at hm
      simp only [bind, Option.bind_eq_some_iff] at hm
      obtain ⟨s1, h1, h3⟩ := hm
      rw [lit_eq_some] at h1
      exact htail (pre ++ OTR_FRAGMENT_V3_PREFIX) s1 [] c (by rw [← ht, h1]; simp) h3 _
    · simp

example (nd : Nat → Bool) : parseFragment nd (ascii "?OTR|1|fff,1,65535,x") ≠ .panic :=
  C09_no_panic_partial nd _ (by decide +kernel) (by
    intro pre w post h hw hd
    have hlen : pre.length ≤ 15 := by
      have := congrArg List.length h
      have h2 : (ascii "?OTR|1|fff,1,65535,x").length = 20 := by decide +kernel
      simp only [List.length_append] at this
      omega
    have hw' : w = ((ascii "?OTR|1|fff,1,65535,x").drop pre.length).take 5 := by
      rw [h, List.append_assoc, List.drop_left, List.take_left' hw]
    have : ∀ k : Fin 16, (((ascii "?OTR|1|fff,1,65535,x").drop k.val).take 5).all (fun b => 48 ≤ b.toNat && b.toNat ≤ 57) = true →
        decimal (((ascii "?OTR|1|fff,1,65535,x").drop k.val).take 5) ≤ 65535 := by decide +kernel
    have := this ⟨pre.length, by omega⟩
    simp only at this
    rw [← hw'] at this
    exact this (by rw [List.all_eq_true]; intro b hb; simpa using hd b hb))

end Otrr.Props
