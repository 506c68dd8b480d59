import Verif.Lemmas.Regex
import Verif.Lemmas.Fragment
import Verif.Lemmas.Messages
/-!
# Texts are read by the regular expressions of the source

C93, and the exact conditions under which a text crashes the parsers (C09, C10).
-/

namespace Otrr.Props
open Otrr Otrr.Spec Otrr.Spec.Regex

variable {nd : Nat → Bool}

theorem firstMatch_map (m : Bytes → Option α) (f : α → β) : ∀ s,
    firstMatch (fun s => (m s).map f) s = (firstMatch m s).map f
  | [] => by simp only [firstMatch]
  | b :: s => by
    simp only [firstMatch]
    cases m (b :: s) with
    | some x => rfl
    | none => exact firstMatch_map m f s

/-- What the groups of a match are, for an OTRv4 fragment. -/
def caps4 (c : FragCaptures) : List (Nat × Bytes) := (1, c.ident) :: tailCaps 2 c

theorem search_v4 (hnd : ∀ n, nd n = true → n.isValidChar) {r : Re} (h : compile FRAGMENT_V4_PATTERN = some r)
    (s : Bytes) : (search nd r s).map (·.1) = (firstMatch (fragV4At nd) s).map caps4 := by
  rw [compile_v4] at h
  cases h
  rw [← firstMatch_map]
  refine search_firstMatch (fun s => ?_) s
  rw [← List.head?_map, runs_v4 hnd]
  cases fragV4At nd s <;> rfl

theorem search_v3 (hnd : ∀ n, nd n = true → n.isValidChar) {r : Re} (h : compile FRAGMENT_V3_PATTERN = some r)
    (s : Bytes) : (search nd r s).map (·.1) = (firstMatch (fragV3At nd) s).map (tailCaps 1) := by
  rw [compile_v3] at h
  cases h
  rw [← firstMatch_map]
  refine search_firstMatch (fun s => ?_) s
  rw [← List.head?_map, runs_v3 hnd]
  cases fragV3At nd s <;> rfl

/-- The captures of a fragment found. -/
def Taken (nd : Nat → Bool) (text : Bytes) (v : Version) (c : FragCaptures) : Prop :=
  (v = .v4 ∧ firstMatch (fragV4At nd) text = some c) ∨
  (v = .v3 ∧ firstMatch (fragV4At nd) text = .none ∧ firstMatch (fragV3At nd) text = some c)

/-- The groups of a fragment. -/
def capsOf (v : Version) (c : FragCaptures) : List (Nat × Bytes) := if v = .v4 then caps4 c else tailCaps 1 c

theorem found_taken (hnd : ∀ n, nd n = true → n.isValidChar) {text : Bytes} {v : Version} {m : Match}
    (h : FragmentFound nd text v m) : ∃ c, Taken nd text v c ∧ m.1 = capsOf v c := by
  cases v with
  | v4 =>
    obtain ⟨r, hr, hs⟩ := h
    have := search_v4 hnd hr text
    rw [hs] at this
    cases hf : firstMatch (fragV4At nd) text with
    | none => rw [hf] at this; cases this
    | some c =>
      rw [hf] at this
      exact ⟨c, .inl ⟨rfl, hf⟩, Option.some.inj this⟩
  | v3 =>
    obtain ⟨⟨r4, hr4, hs4⟩, r, hr, hs⟩ := h
    have h4 := search_v4 hnd hr4 text
    have := search_v3 hnd hr text
    rw [hs4] at h4
    rw [hs] at this
    cases hf : firstMatch (fragV3At nd) text with
    | none => rw [hf] at this; cases this
    | some c =>
      rw [hf] at this
      refine ⟨c, .inr ⟨rfl, ?_, hf⟩, Option.some.inj this⟩
      cases hf4 : firstMatch (fragV4At nd) text with
      | none => rfl
      | some _ => rw [hf4] at h4; cases h4
  | none => exact h.elim
  | unsupported _ => exact h.elim

theorem taken_found (hnd : ∀ n, nd n = true → n.isValidChar) {text : Bytes} {v : Version} {c : FragCaptures}
    (h : Taken nd text v c) : ∃ m, FragmentFound nd text v m ∧ m.1 = capsOf v c := by
  rcases h with ⟨rfl, h⟩ | ⟨rfl, h4, h⟩
  · have := search_v4 hnd compile_v4 text
    rw [h] at this
    cases hs : search nd _ text with
    | none => rw [hs] at this; cases this
    | some m =>
      rw [hs] at this
      exact ⟨m, ⟨_, compile_v4, hs⟩, Option.some.inj this⟩
  · have h4' := search_v4 hnd compile_v4 text
    have := search_v3 hnd compile_v3 text
    rw [h] at this
    rw [h4] at h4'
    cases hs : search nd _ text with
    | none => rw [hs] at this; cases this
    | some m =>
      rw [hs] at this
      refine ⟨m, ⟨⟨_, compile_v4, ?_⟩, ⟨_, compile_v3, hs⟩⟩, Option.some.inj this⟩
      cases hs4 : search nd _ text with
      | none => rfl
      | some _ => rw [hs4] at h4'; cases h4'

theorem parseFragment_taken {text : Bytes} {v : Version} {c : FragCaptures} (h : Taken nd text v c) :
    parseFragment nd text = fragFromCaptures v c := by
  unfold parseFragment
  rcases h with ⟨rfl, h⟩ | ⟨rfl, h4, h⟩
  · rw [h]
  · rw [h4, h]

theorem parseFragment_cases (nd : Nat → Bool) (text : Bytes) :
    (∃ v c, Taken nd text v c) ∨ parseFragment nd text = .ok .none := by
  unfold parseFragment
  cases h4 : firstMatch (fragV4At nd) text with
  | some c => exact .inl ⟨_, c, .inl ⟨rfl, h4⟩⟩
  | none =>
    cases h : firstMatch (fragV3At nd) text with
    | some c => exact .inl ⟨_, c, .inr ⟨rfl, h4, h⟩⟩
    | none => exact .inr rfl

/-! ## Numbers -/

theorem parseU16_iff (s : Bytes) (n : UInt16) :
    parseU16 s = .ok n ↔ (∀ b ∈ s, 48 ≤ b.toNat ∧ b.toNat ≤ 57) ∧ decimal s = n.toNat := by
  have e : decNat s = decimal s := rfl
  unfold parseU16
  rw [e]
  have hall : s.all isDigit = true ↔ ∀ b ∈ s, 48 ≤ b.toNat ∧ b.toNat ≤ 57 := by
    rw [List.all_eq_true]
    exact forall_congr' fun b => imp_congr_right fun _ => Regex.isDigit_iff b
  by_cases h : (s.all isDigit && decide (decimal s < 65536)) = true
  · rw [if_pos h]
    rw [Bool.and_eq_true, hall, decide_eq_true_eq] at h
    constructor
    · intro hh
      cases hh
      exact ⟨h.1, by rw [UInt16.toNat_ofNat', Nat.mod_eq_of_lt h.2]⟩
    · intro hh
      rw [hh.2, UInt16.ofNat_toNat]
  · rw [if_neg h]
    constructor
    · intro hh; cases hh
    · intro hh
      exfalso
      apply h
      rw [Bool.and_eq_true, hall, decide_eq_true_eq]
      exact ⟨hh.1, by rw [hh.2]; exact n.toNat_lt⟩

theorem parseU16_cases (s : Bytes) : parseU16 s = .panic ∨ ∃ n, parseU16 s = .ok n := by
  unfold parseU16
  split
  · exact .inr ⟨_, rfl⟩
  · exact .inl rfl

theorem hexVal_eq : ∀ b : UInt8, isHex b = true → hexVal b = hexDigit b :=
  fin_forall (by decide +kernel)

theorem hexVal_lt : ∀ b : UInt8, isHex b = true → hexVal b < 16 :=
  fin_forall (by decide +kernel)

theorem hexNat_eq (s : Bytes) (h : ∀ b ∈ s, isHex b = true) : hexNat s = hexadecimal s := by
  unfold hexNat hexadecimal
  suffices ∀ (s : Bytes) (a : Nat), (∀ b ∈ s, isHex b = true) →
      s.foldl (fun a b => a * 16 + hexVal b) a = s.foldl (fun a b => a * 16 + hexDigit b) a from this s 0 h
  intro s
  induction s with
  | nil => intros; rfl
  | cons b s ih =>
    intro a h
    simp only [List.foldl_cons]
    rw [hexVal_eq b (h b (by simp)), ih _ fun c hc => h c (by simp [hc])]

theorem hexNat_lt (s : Bytes) (h : ∀ b ∈ s, isHex b = true) : hexNat s < 16 ^ s.length := by
  induction s using List.reverseRecOn with
  | nil => decide
  | append_singleton s b ih =>
    rw [hexNat_append_singleton, List.length_append, List.length_singleton, Nat.pow_succ]
    have := ih fun c hc => h c (by simp [hc])
    have := hexVal_lt b (h b (by simp))
    omega

/-- The hexadecimal fields have at most eight digits. -/
structure HexOk (v : Version) (c : FragCaptures) : Prop where
  ident : v = .v4 → (∀ b ∈ c.ident, isHex b = true) ∧ c.ident.length ≤ 8
  sender : (∀ b ∈ c.sender, isHex b = true) ∧ c.sender.length ≤ 8
  receiver : (∀ b ∈ c.receiver, isHex b = true) ∧ c.receiver.length ≤ 8

theorem fragTail_ok {ident s : Bytes} {c : FragCaptures} (h : fragTail nd ident s = some c) :
    c.ident = ident ∧ ((∀ b ∈ c.sender, isHex b = true) ∧ c.sender.length ≤ 8) ∧
      ((∀ b ∈ c.receiver, isHex b = true) ∧ c.receiver.length ≤ 8) := by
  unfold fragTail at h
  simp only [Option.bind_eq_bind, Option.bind_eq_some_iff, Prod.exists] at h
  obtain ⟨sn, s1, h1, rc, s2, h2, _, _, _, _, _, _, _, _, _, h⟩ := h
  injection h with h
  rw [← h]
  obtain ⟨_, a1, _, a2⟩ := hexField_some h1
  obtain ⟨_, b1, _, b2⟩ := hexField_some h2
  exact ⟨rfl, ⟨a1, a2⟩, ⟨b1, b2⟩⟩

theorem taken_ok {text : Bytes} {v : Version} {c : FragCaptures} (h : Taken nd text v c) : HexOk v c := by
  rcases h with ⟨rfl, h⟩ | ⟨rfl, _, h⟩
  · obtain ⟨t, _, h⟩ := firstMatch_some h
    unfold fragV4At at h
    simp only [Option.bind_eq_bind, Option.bind_eq_some_iff, Prod.exists] at h
    obtain ⟨_, _, i, s2, h2, h⟩ := h
    obtain ⟨e, h3, h4⟩ := fragTail_ok h
    obtain ⟨_, a1, _, a2⟩ := hexField_some h2
    exact ⟨fun _ => by rw [e]; exact ⟨a1, a2⟩, h3, h4⟩
  · obtain ⟨t, _, h⟩ := firstMatch_some h
    unfold fragV3At at h
    simp only [Option.bind_eq_bind, Option.bind_eq_some_iff] at h
    obtain ⟨_, _, h⟩ := h
    obtain ⟨_, h3, h4⟩ := fragTail_ok h
    exact ⟨nofun, h3, h4⟩

theorem taken_version {text : Bytes} {v : Version} {c : FragCaptures} (h : Taken nd text v c) : v = .v3 ∨ v = .v4 := by
  rcases h with ⟨h, _⟩ | ⟨h, _⟩
  · exact .inr h
  · exact .inl h

theorem taken_unique {text : Bytes} {v v' : Version} {c c' : FragCaptures} (h : Taken nd text v c)
    (h' : Taken nd text v' c') : v = v' ∧ c = c' := by
  rcases h with ⟨rfl, h⟩ | ⟨rfl, h4, h⟩ <;> rcases h' with ⟨rfl, h'⟩ | ⟨rfl, h4', h'⟩
  · rw [h] at h'; exact ⟨rfl, Option.some.inj h'⟩
  · rw [h] at h4'; cases h4'
  · rw [h4] at h'; cases h'
  · rw [h] at h'; exact ⟨rfl, Option.some.inj h'⟩

/-- The groups, by number. -/
theorem cap_of {m : Match} {v : Version} {c : FragCaptures} (h : m.1 = capsOf v c) :
    cap m (if v = .v4 then 2 else 1) = some c.sender ∧ cap m (if v = .v4 then 3 else 2) = some c.receiver ∧
    cap m (if v = .v4 then 4 else 3) = some c.part ∧ cap m (if v = .v4 then 5 else 4) = some c.total ∧
    cap m (if v = .v4 then 6 else 5) = some c.payload ∧ (v = .v4 → cap m 1 = some c.ident) := by
  unfold cap
  rw [h]
  unfold capsOf
  by_cases hv : v = .v4
  · simp only [hv, if_true]
    exact ⟨rfl, rfl, rfl, rfl, rfl, fun _ => rfl⟩
  · simp only [hv, if_false]
    exact ⟨rfl, rfl, rfl, rfl, rfl, fun h => absurd h (by simp)⟩

theorem hex_iff {m : Match} {n v : Nat} {w : Bytes} (h : cap m n = some w) (hw : ∀ b ∈ w, isHex b = true) :
    Hex m n v ↔ hexNat w = v := by
  constructor
  · rintro ⟨u, h', e⟩
    rw [h] at h'
    cases h'
    rw [hexNat_eq w hw, e]
  · intro e
    exact ⟨w, h, by rw [← hexNat_eq w hw, e]⟩

theorem dec_iff {m : Match} {n : Nat} {v : UInt16} {w : Bytes} (h : cap m n = some w) :
    Regex.Dec m n v.toNat ↔ parseU16 w = .ok v := by
  rw [parseU16_iff]
  constructor
  · rintro ⟨u, h', e⟩
    rw [h] at h'
    cases h'
    exact e
  · exact fun e => ⟨w, h, e⟩

theorem bad_iff {m : Match} {n : Nat} {w : Bytes} (h : cap m n = some w) :
    BadNumber m n ↔ parseU16 w = .panic := by
  constructor
  · intro hb
    rcases parseU16_cases w with hp | ⟨v, hv⟩
    · exact hp
    · exact absurd ((dec_iff h).mpr hv) (hb _ (by have := v.toNat_lt; omega))
  · intro hp v hv hd
    have e : (UInt16.ofNat v).toNat = v := by rw [UInt16.toNat_ofNat', Nat.mod_eq_of_lt (by omega)]
    rw [← e] at hd
    rw [(dec_iff h).mp hd] at hp
    cases hp

theorem tag_iff {w : Bytes} (h : (∀ b ∈ w, isHex b = true) ∧ w.length ≤ 8) (t : UInt32) :
    hexNat w = t.toNat ↔ t = UInt32.ofNat (hexNat w) := by
  have := hexNat_lt w h.1
  have h2 : (16 : Nat) ^ w.length ≤ 16 ^ 8 := Nat.pow_le_pow_right (by decide) h.2
  have h3 : hexNat w < 2 ^ 32 := by omega
  constructor
  · intro e
    rw [e, UInt32.ofNat_toNat]
  · intro e
    rw [e, UInt32.toNat_ofNat', Nat.mod_eq_of_lt h3]

theorem verifyTag_cases (t : UInt32) : (ValidTag t ∧ verifyTag t = .ok t) ∨ (¬ ValidTag t ∧ ∃ e, verifyTag t = .err e) := by
  by_cases h : ValidTag t
  · exact .inl ⟨h, verifyTag_of_valid h⟩
  · cases hv : verifyTag t with
    | ok u => exact absurd (verifyTag_ok hv).2 h
    | err e => exact .inr ⟨h, e, rfl⟩
    | panic => exact absurd hv (verifyTag_ne_panic t)

/-- What a fragment is read as. -/
theorem fragFromCaptures_iff {v : Version} {c : FragCaptures} (f : Fragment) :
    fragFromCaptures v c = .ok (some f) ↔ f.version = v ∧
      f.identifier = (if v = .v4 then beBytes 4 (hexNat c.ident) else [0, 0, 0, 0]) ∧
      f.sender = UInt32.ofNat (hexNat c.sender) ∧ f.receiver = UInt32.ofNat (hexNat c.receiver) ∧
      parseU16 c.part = .ok f.part ∧ parseU16 c.total = .ok f.total ∧ f.payload = c.payload ∧
      ValidTag f.sender ∧ ValidTag f.receiver := by
  unfold fragFromCaptures
  rcases parseU16_cases c.part with hp | ⟨p, hp⟩
  · rw [hp]
    exact ⟨nofun, fun h => by cases h.2.2.2.2.1⟩
  rcases parseU16_cases c.total with ht | ⟨t, ht⟩
  · rw [hp, ht]
    exact ⟨nofun, fun h => by cases h.2.2.2.2.2.1⟩
  rw [hp, ht]
  show (match verifyTag _, verifyTag _ with | .ok s, .ok r => _ | _, _ => _) = _ ↔ _
  rcases verifyTag_cases (UInt32.ofNat (hexNat c.sender)) with ⟨vs, es⟩ | ⟨vs, e, es⟩
  · rcases verifyTag_cases (UInt32.ofNat (hexNat c.receiver)) with ⟨vr, er⟩ | ⟨vr, e, er⟩
    · rw [es, er]
      constructor
      · intro h
        cases h
        exact ⟨rfl, rfl, rfl, rfl, rfl, rfl, rfl, vs, vr⟩
      · rintro ⟨h1, h2, h3, h4, h5, h6, h7, _⟩
        obtain ⟨fv, fi, fs, fr, fp, ft, fy⟩ := f
        simp only at h1 h2 h3 h4 h5 h6 h7
        cases h5
        cases h6
        rw [h1, h2, h3, h4, h7]
    · rw [es, er]
      refine ⟨nofun, ?_⟩
      rintro ⟨_, _, _, h4, _, _, _, _, h⟩
      rw [h4] at h
      exact absurd h vr
  · rw [es]
    refine ⟨nofun, ?_⟩
    rintro ⟨_, _, h3, _, _, _, _, h, _⟩
    rw [h3] at h
    exact absurd h vs

theorem fragFromCaptures_panic {v : Version} {c : FragCaptures} :
    fragFromCaptures v c = .panic ↔ parseU16 c.part = .panic ∨ parseU16 c.total = .panic := by
  unfold fragFromCaptures
  rcases parseU16_cases c.part with hp | ⟨p, hp⟩
  · rw [hp]
    exact ⟨fun _ => .inl rfl, fun _ => rfl⟩
  rcases parseU16_cases c.total with ht | ⟨t, ht⟩
  · rw [hp, ht]
    exact ⟨fun _ => .inr rfl, fun _ => rfl⟩
  rw [hp, ht]
  refine ⟨?_, fun h => by rcases h with h | h <;> cases h⟩
  show (match verifyTag _, verifyTag _ with | .ok s, .ok r => _ | _, _ => _) = _ → _
  rcases verifyTag_cases (UInt32.ofNat (hexNat c.sender)) with ⟨_, es⟩ | ⟨_, e, es⟩ <;>
    rcases verifyTag_cases (UInt32.ofNat (hexNat c.receiver)) with ⟨_, er⟩ | ⟨_, e, er⟩ <;>
    rw [es, er] <;> nofun

/-! ## Fragments -/

theorem reads_iff {text : Bytes} {v : Version} {c : FragCaptures} {m : Match} (ht : Taken nd text v c)
    (hm : m.1 = capsOf v c) (f : Fragment) :
    fragFromCaptures v c = .ok (some f) ↔ FragmentOf v m f ∧ ValidTag f.sender ∧ ValidTag f.receiver := by
  obtain ⟨hi, hs, hr⟩ := taken_ok ht
  obtain ⟨c1, c2, c3, c4, c5, c6⟩ := cap_of hm
  rw [fragFromCaptures_iff]
  have id4 : v = .v4 → (f.identifier = beBytes 4 (hexNat c.ident) ↔
      f.identifier.length = 4 ∧ Hex m 1 (beNat f.identifier)) := by
    intro h
    rw [hex_iff (c6 h) (hi h).1]
    have h1 := hexNat_lt c.ident (hi h).1
    have h2 : (16 : Nat) ^ c.ident.length ≤ 16 ^ 8 := Nat.pow_le_pow_right (by decide) (hi h).2
    constructor
    · intro e
      rw [e]
      exact ⟨beBytes_length _ _, (beNat_beBytes_of_lt (by omega)).symm⟩
    · rintro ⟨e1, e2⟩
      rw [e2, ← e1, beBytes_beNat]
  constructor
  · rintro ⟨h1, h2, h3, h4, h5, h6, h7, h8, h9⟩
    refine ⟨⟨h1, fun h => ?_, fun h => ?_, ?_, ?_, ?_, ?_, ?_⟩, h8, h9⟩
    · rw [h2, if_neg (by rw [h]; nofun)]
    · rw [if_pos h] at h2
      exact (id4 h).mp h2
    · exact (hex_iff c1 hs.1).mpr ((tag_iff hs _).mpr h3)
    · exact (hex_iff c2 hr.1).mpr ((tag_iff hr _).mpr h4)
    · exact (dec_iff c3).mpr h5
    · exact (dec_iff c4).mpr h6
    · rw [c5, h7]
  · rintro ⟨⟨h1, h2, h2', h3, h4, h5, h6, h7⟩, h8, h9⟩
    refine ⟨h1, ?_, ?_, ?_, ?_, ?_, ?_, h8, h9⟩
    · rcases taken_version ht with h | h
      · rw [if_neg (by rw [h]; nofun), h2 h]
      · rw [if_pos h]
        exact (id4 h).mpr (h2' h)
    · exact (tag_iff hs _).mp ((hex_iff c1 hs.1).mp h3)
    · exact (tag_iff hr _).mp ((hex_iff c2 hr.1).mp h4)
    · exact (dec_iff c3).mp h5
    · exact (dec_iff c4).mp h6
    · rw [c5] at h7
      exact (Option.some.inj h7).symm

/-- C93: a text is read as a fragment exactly if one of the two patterns of the source, read as regular expressions,
finds it, with numbers of 16 bits and legal tags; and then it is that fragment. -/
theorem C93_fragment (hnd : ∀ n, nd n = true → n.isValidChar) (text : Bytes) (f : Fragment) :
    parseFragment nd text = .ok (some f) ↔
      ∃ v m, FragmentFound nd text v m ∧ FragmentOf v m f ∧ ValidTag f.sender ∧ ValidTag f.receiver := by
  constructor
  · intro h
    rcases parseFragment_cases nd text with ⟨v, c, ht⟩ | hn
    · obtain ⟨m, hm, e⟩ := taken_found hnd ht
      rw [parseFragment_taken ht] at h
      exact ⟨v, m, hm, (reads_iff ht e f).mp h⟩
    · rw [hn] at h; cases h
  · rintro ⟨v, m, hm, h⟩
    obtain ⟨c, ht, e⟩ := found_taken hnd hm
    rw [parseFragment_taken ht]
    exact (reads_iff ht e f).mpr h

/-- C09, exactly: reading a text as a fragment crashes if and only if a pattern finds a fragment whose part or total is
more than 65535 or is not written in ASCII digits. -/
theorem C09_exact (hnd : ∀ n, nd n = true → n.isValidChar) (text : Bytes) :
    parseFragment nd text = .panic ↔ ∃ v m, FragmentFound nd text v m ∧
      (BadNumber m (if v = .v4 then 4 else 3) ∨ BadNumber m (if v = .v4 then 5 else 4)) := by
  constructor
  · intro h
    rcases parseFragment_cases nd text with ⟨v, c, ht⟩ | hn
    · obtain ⟨m, hm, e⟩ := taken_found hnd ht
      obtain ⟨_, _, c3, c4, _⟩ := cap_of e
      rw [parseFragment_taken ht, fragFromCaptures_panic] at h
      exact ⟨v, m, hm, h.imp (bad_iff c3).mpr (bad_iff c4).mpr⟩
    · rw [hn] at h; cases h
  · rintro ⟨v, m, hm, h⟩
    obtain ⟨c, ht, e⟩ := found_taken hnd hm
    obtain ⟨_, _, c3, c4, _⟩ := cap_of e
    rw [parseFragment_taken ht, fragFromCaptures_panic]
    exact h.imp (bad_iff c3).mp (bad_iff c4).mp

/-! ## Other texts -/

theorem search_query (hnd : ∀ n, nd n = true → n.isValidChar) {r : Re} (h : compile QUERY_PATTERN = some r) (s : Bytes) :
    (search nd r s).map (fun x => cap x 1) = firstMatch (queryAt nd) s := by
  rw [compile_query] at h
  cases h
  exact search_firstMatch (fun s => head_query hnd s) s

theorem search_whitespace {r : Re} (h : compile WHITESPACE_PATTERN = some r) (s : Bytes) :
    (search nd r s).map (fun x => (cap x 1, x.2.2)) = firstMatch wsAt s := by
  rw [compile_whitespace] at h
  cases h
  exact search_firstMatch (fun s => head_whitespace s) s

theorem errorPrefix_eq : ascii "?OTR Error:" = OTR_ERROR_PREFIX := by decide +kernel

theorem tagVersions_eq (t : Bytes) : tagVersions t = parseWhitespaceTags t := by
  unfold tagVersions parseWhitespaceTags parseTag
  rw [show ascii " \t \t  \t " = WHITESPACE_TAG_OTRV1 by decide +kernel,
    show ascii "  \t\t  \t " = WHITESPACE_TAG_OTRV2 by decide +kernel,
    show ascii "  \t\t  \t\t" = WHITESPACE_TAG_OTRV3 by decide +kernel,
    show ascii "  \t\t \t  " = WHITESPACE_TAG_OTRV4 by decide +kernel]

/-- C93: any other text is read as the patterns of the source say. -/
theorem C93_plain (hnd : ∀ n, nd n = true → n.isValidChar) (text : Bytes) (r : Res MessageType) :
    parsePlain nd text = r ↔ ReadsAs nd text r := by
  have isPre : ∀ p : Bytes, p.isPrefixOf text = true ↔ p <+: text := fun p => List.isPrefixOf_iff_prefix
  -- what the searches find
  have hq := search_query hnd compile_query text
  have hw := search_whitespace (nd := nd) compile_whitespace text
  constructor
  · rintro rfl
    unfold parsePlain
    by_cases he : OTR_ERROR_PREFIX.isPrefixOf text = true
    · rw [if_pos he]
      obtain ⟨e, rfl⟩ := (isPre _).mp he
      rw [List.drop_left]
      exact .error e (by rw [errorPrefix_eq])
    · rw [if_neg he]
      have he' : ¬ ascii "?OTR Error:" <+: text := by rwa [errorPrefix_eq, ← isPre]
      cases hsq : search nd _ text with
      | some m =>
        rw [hsq] at hq
        rw [← hq]
        dsimp only [Option.map_some]
        cases hc : cap m 1 with
        | some g => exact .query m g he' ⟨_, compile_query, hsq⟩ hc
        | none => exact .bareQuery m he' ⟨_, compile_query, hsq⟩ hc
      | none =>
        rw [hsq] at hq
        rw [← hq]
        dsimp only [Option.map_none]
        cases hsw : search nd _ text with
        | some m =>
          rw [hsw] at hw
          rw [← hw]
          dsimp only [Option.map_some]
          cases hc : cap m 1 with
          | some t =>
            dsimp only
            rw [← tagVersions_eq]
            exact .tagged m t _ he' ⟨_, compile_query, hsq⟩ ⟨_, compile_whitespace, hsw⟩ hc
              ⟨_, compile_whitespace, (remove_eq _ _).symm⟩
          | none => exact .bareTag m he' ⟨_, compile_query, hsq⟩ ⟨_, compile_whitespace, hsw⟩ hc
        | none =>
          rw [hsw] at hw
          rw [← hw]
          exact .plaintext he' ⟨_, compile_query, hsq⟩ ⟨_, compile_whitespace, hsw⟩
  · intro h
    have neg : ¬ ascii "?OTR Error:" <+: text → ¬ OTR_ERROR_PREFIX.isPrefixOf text = true := by
      rw [errorPrefix_eq, isPre]; exact id
    have fq : ∀ m, Found nd QUERY_PATTERN text m → firstMatch (queryAt nd) text = some (cap m 1) := by
      rintro m ⟨r, hr, hs⟩
      have := search_query hnd hr text
      rw [hs] at this
      exact this.symm
    have nq : NotFound nd QUERY_PATTERN text → firstMatch (queryAt nd) text = .none := by
      rintro ⟨r, hr, hs⟩
      have := search_query hnd hr text
      rw [hs] at this
      exact this.symm
    have fw : ∀ m, Found nd WHITESPACE_PATTERN text m → firstMatch wsAt text = some (cap m 1, m.2.2) := by
      rintro m ⟨r, hr, hs⟩
      have := search_whitespace (nd := nd) hr text
      rw [hs] at this
      exact this.symm
    have nw : NotFound nd WHITESPACE_PATTERN text → firstMatch wsAt text = .none := by
      rintro ⟨r, hr, hs⟩
      have := search_whitespace (nd := nd) hr text
      rw [hs] at this
      exact this.symm
    unfold parsePlain
    cases h with
    | error e ht =>
      rw [errorPrefix_eq] at ht
      rw [if_pos ((isPre _).mpr ⟨e, ht.symm⟩), ht, List.drop_left]
    | query m g he hf hc =>
      rw [if_neg (neg he), fq m hf, hc]
      rfl
    | bareQuery m he hf hc => rw [if_neg (neg he), fq m hf, hc]
    | tagged m t text' he hn hf hc hr =>
      obtain ⟨r, hr, e⟩ := hr
      rw [compile_whitespace] at hr
      cases hr
      rw [if_neg (neg he), nq hn]
      dsimp only
      rw [fw m hf, hc, e, remove_eq, tagVersions_eq]
    | bareTag m he hn hf hc =>
      rw [if_neg (neg he), nq hn]
      dsimp only
      rw [fw m hf, hc]
    | plaintext he hn hn2 =>
      rw [if_neg (neg he), nq hn]
      dsimp only
      rw [nw hn2]

/-- C10, exactly: a text that is not an encoded message crashes the client if and only if it is no error text and
either the first query in it is without a list of versions, or there is no query and the first whitespace tag is without
versions. -/
theorem C10_exact (E : Env) (hnd : ∀ n, E.nd n = true → n.isValidChar) (text : Bytes)
    (hplain : ¬ (OTR_ENCODED_PREFIX <+: text ∧ [0x2e] <:+ text)) :
    parse E text = .panic ↔ ¬ ascii "?OTR Error:" <+: text ∧
      ((∃ m, Found E.nd QUERY_PATTERN text m ∧ cap m 1 = none) ∨
       (NotFound E.nd QUERY_PATTERN text ∧ ∃ m, Found E.nd WHITESPACE_PATTERN text m ∧ cap m 1 = none)) := by
  have hp : parse E text = parsePlain E.nd text := by
    unfold parse
    rw [if_neg]
    intro h
    rw [Bool.and_eq_true, List.isPrefixOf_iff_prefix, List.isSuffixOf_iff_suffix] at h
    exact hplain h
  rw [hp, C93_plain hnd]
  constructor
  · intro h
    cases h with
    | bareQuery m he hf hc => exact ⟨he, .inl ⟨m, hf, hc⟩⟩
    | bareTag m he hn hf hc => exact ⟨he, .inr ⟨hn, m, hf, hc⟩⟩
  · rintro ⟨he, ⟨m, hf, hc⟩ | ⟨hn, m, hf, hc⟩⟩
    · exact .bareQuery m he hf hc
    · exact .bareTag m he hn hf hc

/-! ## Examples -/

/-- The digits beyond ASCII of the examples: U+0660 to U+0669. -/
def arabicDigits (n : Nat) : Bool := 0x660 ≤ n && n ≤ 0x669

theorem arabicDigits_valid : ∀ n, arabicDigits n = true → n.isValidChar := by
  intro n h
  simp only [arabicDigits, Bool.and_eq_true, decide_eq_true_eq] at h
  exact .inl (by omega)

/-- A fragment in the middle of a text. -/
example : ∃ f, parseFragment arabicDigits (ascii "see ?OTR|100|fFf,00001,2,aGk=?,") = .ok (some f) ∧
    f.sender = 0x100 ∧ f.receiver = 0xfff ∧ f.part = 1 ∧ f.total = 2 ∧ f.payload = ascii "aGk=?" :=
  ⟨⟨.v3, [0, 0, 0, 0], 0x100, 0xfff, 1, 2, ascii "aGk=?"⟩, by decide +kernel⟩

/-- A number with an Arabic digit is found by the pattern and crashes the client. -/
example : ∃ m, FragmentFound arabicDigits (ascii "?OTR|100|100,1" ++ [0xd9, 0xa1] ++ ascii ",2,a,") .v3 m ∧
    BadNumber m 3 := by
  have h : parseFragment arabicDigits (ascii "?OTR|100|100,1" ++ [0xd9, 0xa1] ++ ascii ",2,a,") = .panic := by
    decide +kernel
  have h4 : firstMatch (fragV4At arabicDigits) (ascii "?OTR|100|100,1" ++ [0xd9, 0xa1] ++ ascii ",2,a,") = .none := by
    decide +kernel
  obtain ⟨c, hc⟩ : ∃ c, firstMatch (fragV3At arabicDigits) (ascii "?OTR|100|100,1" ++ [0xd9, 0xa1] ++ ascii ",2,a,") =
      some c ∧ parseU16 c.part = .panic :=
    ⟨⟨[], ascii "100", ascii "100", ascii "1" ++ [0xd9, 0xa1], ascii "2", ascii "a"⟩, by decide +kernel⟩
  obtain ⟨m, hm, e⟩ := taken_found arabicDigits_valid (.inr ⟨rfl, h4, hc.1⟩)
  exact ⟨m, hm, (bad_iff (cap_of e).2.2.1).mpr hc.2⟩

/-- `?OTR?` alone: the question mark is given back, and there is no list of versions. -/
example : ReadsAs arabicDigits (ascii "hi ?OTR?v4x") .panic :=
  (C93_plain arabicDigits_valid _ _).mp (by decide +kernel)

/-- Only the last of the blocks counts, and all tags are removed. -/
example : ReadsAs arabicDigits (ascii "a" ++ WHITESPACE_PREFIX ++ WHITESPACE_TAG_OTRV4 ++ WHITESPACE_TAG_OTRV3 ++ ascii "b")
    (.ok (.tagged [.v3] (ascii "ab"))) :=
  (C93_plain arabicDigits_valid _ _).mp (by decide +kernel)

end Otrr.Props
