import Verif.Model.Fragment
import Verif.Lemmas.Encoding
import Verif.Spec.Fragment
/-! Lemmas about fragment text. -/

namespace Otrr

theorem forall_uint8 {P : UInt8 → Prop} (h : ∀ n : Fin 256, P (UInt8.ofNat n.val)) : ∀ b, P b := by
  intro b
  have := h ⟨b.toNat, b.toNat_lt⟩
  simpa using this

theorem textChar_iff (b : UInt8) : Spec.TextChar b ↔ isPayloadChar b = true := by
  revert b
  apply forall_uint8
  unfold Spec.TextChar
  decide +kernel

theorem isHex_hexChar (n : Nat) (h : n < 16) : isHex (hexChar n) = true ∧ hexVal (hexChar n) = n := by
  have : ∀ n : Fin 16, isHex (hexChar n.val) = true ∧ hexVal (hexChar n.val) = n.val := by decide +kernel
  exact this ⟨n, h⟩

@[simp] theorem hexFixed_length (n v : Nat) : (hexFixed n v).length = n := by
  induction n generalizing v with
  | zero => rfl
  | succ n ih => simp [hexFixed, ih]

@[simp] theorem decFixed_length (n v : Nat) : (decFixed n v).length = n := by
  induction n generalizing v with
  | zero => rfl
  | succ n ih => simp [decFixed, ih]

theorem hexFixed_isHex (n v : Nat) : ∀ b ∈ hexFixed n v, isHex b = true := by
  induction n generalizing v with
  | zero => simp [hexFixed]
  | succ n ih =>
    intro b hb
    simp only [hexFixed, List.mem_append, List.mem_singleton] at hb
    rcases hb with hb | rfl
    · exact ih _ b hb
    · exact (isHex_hexChar _ (Nat.mod_lt _ (by decide))).1

theorem hexNat_append_singleton (s : Bytes) (b : UInt8) : hexNat (s ++ [b]) = hexNat s * 16 + hexVal b := by
  simp [hexNat]

theorem hexNat_hexFixed (n v : Nat) (h : v < 16 ^ n) : hexNat (hexFixed n v) = v := by
  induction n generalizing v with
  | zero => simp at h; subst h; rfl
  | succ n ih =>
    rw [hexFixed, hexNat_append_singleton, ih _ (by rw [Nat.pow_succ] at h; omega),
      (isHex_hexChar _ (Nat.mod_lt _ (by decide))).2]
    omega

theorem dec_digit (n : Nat) (h : n < 10) :
    isDigit (UInt8.ofNat (0x30 + n)) = true ∧ (UInt8.ofNat (0x30 + n)).toNat - 0x30 = n := by
  have : ∀ n : Fin 10, isDigit (UInt8.ofNat (0x30 + n.val)) = true ∧
    (UInt8.ofNat (0x30 + n.val)).toNat - 0x30 = n.val := by decide +kernel
  exact this ⟨n, h⟩

theorem decFixed_isDigit (n v : Nat) : ∀ b ∈ decFixed n v, isDigit b = true := by
  induction n generalizing v with
  | zero => simp [decFixed]
  | succ n ih =>
    intro b hb
    simp only [decFixed, List.mem_append, List.mem_singleton] at hb
    rcases hb with hb | rfl
    · exact ih _ b hb
    · exact (dec_digit _ (Nat.mod_lt _ (by decide))).1

theorem decNat_append_singleton (s : Bytes) (b : UInt8) :
    decNat (s ++ [b]) = decNat s * 10 + (b.toNat - 0x30) := by
  simp [decNat]

theorem decNat_decFixed (n v : Nat) (h : v < 10 ^ n) : decNat (decFixed n v) = v := by
  induction n generalizing v with
  | zero => simp at h; subst h; rfl
  | succ n ih =>
    rw [decFixed, decNat_append_singleton, ih _ (by rw [Nat.pow_succ] at h; omega),
      (dec_digit _ (Nat.mod_lt _ (by decide))).2]
    omega

theorem takeWhile_run {p : UInt8 → Bool} {run : Bytes} (h : ∀ b ∈ run, p b = true) {d : UInt8}
    (hd : p d = false) (rest : Bytes) : (run ++ d :: rest).takeWhile p = run := by
  induction run with
  | nil => simp [hd]
  | cons b run ih =>
    have hb := h b (by simp)
    simp [hb, ih (fun x hx => h x (by simp [hx]))]

theorem mem_takeWhile_imp {p : UInt8 → Bool} {s : Bytes} {b : UInt8} (h : b ∈ s.takeWhile p) :
    p b = true := by
  have := List.all_takeWhile (p := p) (l := s)
  rw [List.all_eq_true] at this
  exact this b h

theorem lit_self (p s : Bytes) : lit p (p ++ s) = some s := by
  have : p.isPrefixOf (p ++ s) = true := by
    rw [List.isPrefixOf_iff_prefix]
    exact List.prefix_append _ _
  simp [lit, this]

theorem lit_eq_some {p s r : Bytes} : lit p s = some r ↔ s = p ++ r := by
  constructor
  · intro h
    unfold lit at h
    split at h
    · next hp =>
      rw [List.isPrefixOf_iff_prefix] at hp
      obtain ⟨t, rfl⟩ := hp
      simp at h
      rw [h]
    · simp at h
  · rintro rfl; exact lit_self _ _

theorem hexField_run {lo hi : Nat} {d : UInt8} {run : Bytes} (h : ∀ b ∈ run, isHex b = true)
    (hd : isHex d = false) (hlo : lo ≤ run.length) (hhi : run.length ≤ hi) (rest : Bytes) :
    hexField lo hi d (run ++ d :: rest) = some (run, rest) := by
  unfold hexField
  simp only [takeWhile_run h hd rest]
  have : lit [d] (d :: rest) = some rest := lit_self [d] rest
  simp [hlo, hhi, this]

theorem digitTok_digit (nd : Nat → Bool) {b : UInt8} (h : isDigit b = true) (r : Bytes) :
    digitTok nd (b :: r) = some ([b], r) := by
  unfold digitTok
  simp [h]

theorem digitTok_low (nd : Nat → Bool) {b : UInt8} (h : isDigit b = false) (h2 : b < 0xc2) (r : Bytes) :
    digitTok nd (b :: r) = .none := by
  have h3 : ¬ (0xc2 ≤ b) := UInt8.not_le.mpr h2
  have h4 : ¬ (0xe0 ≤ b) := fun h => h3 (UInt8.le_trans (by decide) h)
  have h5 : ¬ (0xf0 ≤ b) := fun h => h3 (UInt8.le_trans (by decide) h)
  unfold digitTok
  simp only [h, Bool.false_eq_true, if_false, h3, h4, h5, decide_false, Bool.false_and]
  split
  · rfl
  · split
    · rfl
    · split <;> rfl

theorem digitRun_run (nd : Nat → Bool) {run : Bytes} (h : ∀ b ∈ run, isDigit b = true) {d : UInt8}
    (hd : isDigit d = false) (hd2 : d < 0xc2) (n : Nat) (hn : run.length ≤ n) (rest : Bytes) :
    digitRun nd n (run ++ d :: rest) = (run, d :: rest) := by
  induction run generalizing n with
  | nil =>
    cases n with
    | zero => rfl
    | succ n => simp [digitRun, digitTok_low nd hd hd2]
  | cons b run ih =>
    cases n with
    | zero => simp at hn
    | succ n =>
      simp only [List.cons_append, digitRun, digitTok_digit nd (h b (by simp))]
      rw [ih (fun x hx => h x (by simp [hx])) n (by simpa using hn)]
      rfl

theorem numField_run (nd : Nat → Bool) {run : Bytes} (h : ∀ b ∈ run, isDigit b = true)
    (hne : run ≠ []) (hn : run.length ≤ 5) (rest : Bytes) :
    numField nd (run ++ 0x2c :: rest) = some (run, rest) := by
  unfold numField
  rw [digitRun_run nd h (by decide) (by decide) 5 hn rest]
  simp only [hne, if_false]
  have := lit_self [0x2c] rest
  simp at this
  simp [this]

theorem payloadField_run {run : Bytes} (h : ∀ b ∈ run, isPayloadChar b = true) (hne : run ≠ [])
    (rest : Bytes) : payloadField (run ++ 0x2c :: rest) = some (run, rest) := by
  unfold payloadField
  simp only [takeWhile_run h (by decide : isPayloadChar 0x2c = false) rest]
  have : lit [0x2c] (0x2c :: rest) = some rest := lit_self [0x2c] rest
  simp [hne, this]

theorem firstMatch_head {m : Bytes → Option α} {s : Bytes} {a : α} (h : m s = some a) :
    firstMatch m s = some a := by
  cases s <;> simp [firstMatch, h]

theorem firstMatch_none {m : Bytes → Option α} {s : Bytes}
    (h : ∀ t, t <:+ s → m t = .none) : firstMatch m s = .none := by
  induction s with
  | nil => simpa [firstMatch] using h [] (List.suffix_refl _)
  | cons b r ih =>
    simp only [firstMatch, h _ (List.suffix_refl _)]
    exact ih fun t ht => h t (ht.trans (List.suffix_cons b r))

theorem firstMatch_some {m : Bytes → Option α} {s : Bytes} {a : α} (h : firstMatch m s = some a) :
    ∃ t, t <:+ s ∧ m t = some a := by
  induction s with
  | nil => exact ⟨[], List.suffix_refl _, by simpa [firstMatch] using h⟩
  | cons b r ih =>
    simp only [firstMatch] at h
    split at h
    · next a' ha =>
      simp at h
      subst h
      exact ⟨_, List.suffix_refl _, ha⟩
    · obtain ⟨t, ht, hm⟩ := ih h
      exact ⟨t, ht.trans (List.suffix_cons b r), hm⟩

theorem hexField_some {lo hi : Nat} {d : UInt8} {s run rest : Bytes}
    (h : hexField lo hi d s = some (run, rest)) :
    s = run ++ d :: rest ∧ (∀ b ∈ run, isHex b = true) ∧ lo ≤ run.length ∧ run.length ≤ hi := by
  unfold hexField at h
  simp only at h
  split at h
  · next hc =>
    simp only [Option.map_eq_some_iff, Prod.mk.injEq] at h
    obtain ⟨r, h1, rfl, rfl⟩ := h
    rw [lit_eq_some] at h1
    refine ⟨?_, ?_, ?_⟩
    · have := List.take_append_drop (s.takeWhile isHex).length s
      rw [h1] at this
      have h2 : List.take (s.takeWhile isHex).length s = s.takeWhile isHex := by
        have := List.takeWhile_prefix isHex (l := s)
        exact (List.prefix_iff_eq_take.mp this).symm
      rw [h2] at this
      exact this.symm
    · exact fun b hb => mem_takeWhile_imp hb
    · simpa using hc
  · simp at h

/-- A match of the OTRv4 pattern contains three bars. -/
theorem fragV4At_bars {nd : Nat → Bool} {s : Bytes} {c : FragCaptures} (h : fragV4At nd s = some c) :
    3 ≤ s.count 0x7c := by
  unfold fragV4At fragTail at h
  simp only [bind, Option.bind_eq_some_iff] at h
  obtain ⟨s1, h1, ⟨i, s2⟩, h2, ⟨sn, s3⟩, h3, _⟩ := h
  rw [lit_eq_some] at h1
  obtain ⟨h2, -⟩ := hexField_some h2
  obtain ⟨h3, -⟩ := hexField_some h3
  subst h1
  simp only at h2 h3
  rw [h2, h3]
  simp only [List.count_append, List.count_cons, OTR_FRAGMENT_V3_PREFIX]
  simp
  omega

theorem count_zero_of_forall {p : UInt8 → Bool} {s : Bytes} {c : UInt8} (h : ∀ b ∈ s, p b = true)
    (hc : p c = false) : s.count c = 0 := by
  rw [List.count_eq_zero]
  intro hm
  rw [h c hm] at hc
  exact absurd hc (by decide)

/-- What `fragTail` does on the text written by the encoder. -/
theorem fragTail_text (nd : Nat → Bool) (ident : Bytes) (f : Fragment)
    (hp : f.payload ≠ []) (hc : ∀ b ∈ f.payload, isPayloadChar b = true) :
    fragTail nd ident (hexFixed 8 f.sender.toNat ++ 0x7c :: (hexFixed 8 f.receiver.toNat ++ 0x2c ::
      (decFixed 5 f.part.toNat ++ 0x2c :: (decFixed 5 f.total.toNat ++ 0x2c ::
        (f.payload ++ 0x2c :: []))))) =
      some ⟨ident, hexFixed 8 f.sender.toNat, hexFixed 8 f.receiver.toNat, decFixed 5 f.part.toNat,
        decFixed 5 f.total.toNat, f.payload⟩ := by
  have ne5 : ∀ v, decFixed 5 v ≠ [] := by
    intro v hv
    have := congrArg List.length hv
    simp at this
  unfold fragTail
  simp only [bind]
  rw [hexField_run (hexFixed_isHex 8 _) (by decide) (by simp) (by simp)]
  simp only [Option.bind_some]
  rw [hexField_run (hexFixed_isHex 8 _) (by decide) (by simp) (by simp)]
  simp only [Option.bind_some]
  rw [numField_run nd (decFixed_isDigit 5 _) (ne5 _) (by simp)]
  simp only [Option.bind_some]
  rw [numField_run nd (decFixed_isDigit 5 _) (ne5 _) (by simp)]
  simp only [Option.bind_some]
  rw [payloadField_run hc hp]
  rfl

theorem hexNat_append (a b : Bytes) : hexNat (a ++ b) = hexNat a * 16 ^ b.length + hexNat b := by
  induction b generalizing a with
  | nil => simp [hexNat]
  | cons c b ih =>
    have e1 : a ++ c :: b = (a ++ [c]) ++ b := by simp
    have e2 : c :: b = [c] ++ b := rfl
    rw [e1, ih, hexNat_append_singleton, e2, ih [c], List.length_append]
    have : hexNat [c] = hexVal c := by simp [hexNat]
    rw [this]
    simp only [List.length_singleton, Nat.pow_add, Nat.pow_one, Nat.add_mul]
    have : hexNat a * 16 * 16 ^ b.length = hexNat a * (16 * 16 ^ b.length) := by rw [Nat.mul_assoc]
    omega

theorem hexNat_ident (bs : Bytes) :
    hexNat ((bs.map fun b => hexFixed 2 b.toNat).flatten) = beNat bs := by
  have key : ∀ l : Bytes, hexNat ((l.reverse.map fun b => hexFixed 2 b.toNat).flatten) = beNat l.reverse := by
    intro l
    induction l with
    | nil => rfl
    | cons b l ih =>
      rw [List.reverse_cons, List.map_append, List.flatten_append, hexNat_append, ih,
        beNat_append_singleton]
      simp only [List.map_cons, List.map_nil, List.flatten_cons, List.flatten_nil, List.append_nil,
        hexFixed_length]
      rw [hexNat_hexFixed 2 _ (by have := b.toNat_lt; omega)]
  simpa using key bs.reverse

theorem ident_length (bs : Bytes) :
    ((bs.map fun b => hexFixed 2 b.toNat).flatten).length = 2 * bs.length := by
  induction bs with
  | nil => rfl
  | cons b bs ih => simp [ih]; omega

theorem ident_isHex (bs : Bytes) :
    ∀ b ∈ (bs.map fun b => hexFixed 2 b.toNat).flatten, isHex b = true := by
  intro b hb
  simp only [List.mem_flatten, List.mem_map] at hb
  obtain ⟨l, ⟨c, _, rfl⟩, hb⟩ := hb
  exact hexFixed_isHex _ _ b hb

theorem verifyTag_ok_iff (t : UInt32) : verifyTag t = .ok t ↔ t = 0 ∨ 0x100 ≤ t.toNat := by
  unfold verifyTag INSTANCE_ZERO INSTANCE_MIN_VALID
  split
  · next h =>
    obtain ⟨h1, h2⟩ := h
    rw [gt_iff_lt, UInt32.lt_iff_toNat_lt] at h1
    rw [UInt32.lt_iff_toNat_lt] at h2
    simp at h1 h2
    simp only [reduceCtorEq, false_iff]
    rintro (rfl | h)
    · simp at h1
    · omega
  · next h =>
    simp only [true_iff]
    rw [gt_iff_lt, UInt32.lt_iff_toNat_lt, UInt32.lt_iff_toNat_lt] at h
    simp at h
    by_cases h0 : t = 0
    · exact .inl h0
    · right
      have : t.toNat ≠ 0 := fun hc => h0 (UInt32.toNat_inj.mp (by simpa using hc))
      omega

theorem parseU16_decFixed (v : UInt16) : parseU16 (decFixed 5 v.toNat) = .ok v := by
  unfold parseU16
  have hv := v.toNat_lt
  rw [decNat_decFixed 5 _ (by omega)]
  have h1 : (decFixed 5 v.toNat).all isDigit = true := by
    rw [List.all_eq_true]; exact decFixed_isDigit 5 _
  have h2 : v.toNat < 65536 := by omega
  simp [h1, h2]

theorem fragFromCaptures_text (v : Version) (ident : Bytes) (f : Fragment)
    (hs : verifyTag f.sender = .ok f.sender) (hr : verifyTag f.receiver = .ok f.receiver) :
    fragFromCaptures v ⟨ident, hexFixed 8 f.sender.toNat, hexFixed 8 f.receiver.toNat,
      decFixed 5 f.part.toNat, decFixed 5 f.total.toNat, f.payload⟩ =
      .ok (some ⟨v, if v = .v4 then beBytes 4 (hexNat ident) else [0, 0, 0, 0], f.sender, f.receiver,
        f.part, f.total, f.payload⟩) := by
  unfold fragFromCaptures
  simp only [parseU16_decFixed, Res.bind_ok]
  have h1 := f.sender.toNat_lt
  have h2 := f.receiver.toNat_lt
  rw [hexNat_hexFixed 8 _ (by omega), hexNat_hexFixed 8 _ (by omega)]
  simp only [UInt32.ofNat_toNat, hs, hr]

/-- The text the encoder writes. -/
def fragText (f : Fragment) : Bytes :=
  OTR_FRAGMENT_V3_PREFIX ++
    (if f.version = .v4 then (f.identifier.map fun b => hexFixed 2 b.toNat).flatten ++ [0x7c] else []) ++
    (hexFixed 8 f.sender.toNat ++ 0x7c :: (hexFixed 8 f.receiver.toNat ++ 0x2c ::
      (decFixed 5 f.part.toNat ++ 0x2c :: (decFixed 5 f.total.toNat ++ 0x2c ::
        (f.payload ++ 0x2c :: [])))))

theorem encodeFragment_valid {f : Fragment} (h : Spec.ValidFragment f) :
    encodeFragment f = .ok (fragText f) := by
  have hs : verifyTag f.sender = .ok f.sender := (verifyTag_ok_iff _).mpr (.inr h.sender)
  have hr : verifyTag f.receiver = .ok f.receiver := (verifyTag_ok_iff _).mpr h.receiver
  have hv : (decide (f.version = .v3) || decide (f.version = .v4)) = true := by
    rcases h.version with ⟨hv, _⟩ | ⟨hv, _⟩ <;> simp [hv]
  have hs0 : (f.sender != 0) = true := by
    have := h.sender
    simp only [bne_iff_ne, ne_eq]
    intro hc
    rw [hc] at this
    simp at this
  have hp := h.part
  have ht := h.total
  have hp0 : (f.part != 0) = true := by
    simp only [bne_iff_ne, ne_eq]; intro hc; rw [hc] at hp; simp at hp
  have ht0 : (f.total != 0) = true := by
    simp only [bne_iff_ne, ne_eq]; intro hc; rw [hc] at ht; simp at ht; omega
  have hle : decide (f.part ≤ f.total) = true := by
    simp only [decide_eq_true_eq, UInt16.le_iff_toNat_le]; exact ht
  have hne : (f.payload != []) = true := by simpa using h.payload
  unfold encodeFragment
  simp only [hv, hs, hr, hs0, hp0, ht0, hle, hne, Res.isOk, Res.assert, if_true, Res.bind_ok,
    Res.pure_def, Res.ok.injEq]
  unfold fragText
  simp [OTR_FRAGMENT_SUFFIX, List.append_assoc]

theorem fragText_parse (nd : Nat → Bool) {f : Fragment} (h : Spec.ValidFragment f) :
    parseFragment nd (fragText f) = .ok (some f) := by
  have hs : verifyTag f.sender = .ok f.sender := (verifyTag_ok_iff _).mpr (.inr h.sender)
  have hr : verifyTag f.receiver = .ok f.receiver := (verifyTag_ok_iff _).mpr h.receiver
  have hc : ∀ b ∈ f.payload, isPayloadChar b = true := fun b hb => (textChar_iff b).mp (h.chars b hb)
  have tail := fun ident => fragTail_text nd ident f h.payload hc
  rcases h.version with ⟨hv, hi⟩ | ⟨hv, hi⟩
  · have e : fragText f = OTR_FRAGMENT_V3_PREFIX ++ (hexFixed 8 f.sender.toNat ++ 0x7c ::
        (hexFixed 8 f.receiver.toNat ++ 0x2c :: (decFixed 5 f.part.toNat ++ 0x2c ::
        (decFixed 5 f.total.toNat ++ 0x2c :: (f.payload ++ 0x2c :: []))))) := by
      simp [fragText, hv]
    have h4 : firstMatch (fragV4At nd) (fragText f) = .none := by
      apply firstMatch_none
      intro t ht
      cases hm : fragV4At nd t with
      | none => rfl
      | some c =>
        exfalso
        have h3 := fragV4At_bars hm
        have hle := ht.sublist.count_le (0x7c : UInt8)
        rw [e] at hle
        simp only [List.count_append, List.count_cons, OTR_FRAGMENT_V3_PREFIX,
          count_zero_of_forall (hexFixed_isHex 8 _) (by decide : isHex 0x7c = false),
          count_zero_of_forall (decFixed_isDigit 5 _) (by decide : isDigit 0x7c = false),
          count_zero_of_forall hc (by decide : isPayloadChar 0x7c = false)] at hle
        simp at hle
        omega
    have h3 : firstMatch (fragV3At nd) (fragText f) = some ⟨[], hexFixed 8 f.sender.toNat,
        hexFixed 8 f.receiver.toNat, decFixed 5 f.part.toNat, decFixed 5 f.total.toNat, f.payload⟩ := by
      apply firstMatch_head
      rw [e]
      unfold fragV3At
      rw [lit_self]
      simp only [bind, Option.bind_some]
      exact tail []
    unfold parseFragment
    rw [h4]
    simp only [h3]
    rw [fragFromCaptures_text _ _ _ hs hr]
    cases f
    simp_all
  · have h4 : firstMatch (fragV4At nd) (fragText f) =
        some ⟨(f.identifier.map fun b => hexFixed 2 b.toNat).flatten, hexFixed 8 f.sender.toNat,
        hexFixed 8 f.receiver.toNat, decFixed 5 f.part.toNat, decFixed 5 f.total.toNat, f.payload⟩ := by
      apply firstMatch_head
      unfold fragText fragV4At
      simp only [hv, if_true, List.append_assoc]
      rw [lit_self]
      simp only [bind, Option.bind_some, List.singleton_append]
      rw [hexField_run (ident_isHex _) (by decide) (by rw [ident_length]; omega)
        (by rw [ident_length]; omega)]
      simp only [Option.bind_some]
      exact tail _
    unfold parseFragment
    rw [h4]
    simp only
    rw [fragFromCaptures_text _ _ _ hs hr, hexNat_ident]
    have := beBytes_beNat f.identifier
    rw [hi] at this
    rw [this]
    cases f
    simp_all

end Otrr
