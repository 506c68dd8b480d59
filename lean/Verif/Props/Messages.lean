import Verif.Lemmas.Text
/-! C03, C10 to C13: messages in transit and unencoded text.  C36 for decoding. -/

namespace Otrr.Props
open Otrr Otrr.Spec

/-! ## C03 -/

/-- C03: every well-formed message of every type survives serialisation and parsing, with any permitted
instance tags. -/
theorem C03_transport (E : Env) (hc : GoodCurve E.curve) (m : EncodedMessage)
    (hs : ValidTag m.sender) (hr : ValidTag m.receiver) (hv : DefinedFor m.message m.version)
    (h : WfMessage E m.message) :
    ∃ t, serialize (.encoded m) = .ok t ∧ parse E t = .ok (.encoded m) :=
  parse_serialize hc hs hr hv h

/-- C03 on the curve of the code. -/
theorem C03_transport_ed448 (E : Env) (hE : E.curve = ed448) (m : EncodedMessage)
    (hs : ValidTag m.sender) (hr : ValidTag m.receiver) (hv : DefinedFor m.message m.version)
    (h : WfMessage E m.message) :
    ∃ t, serialize (.encoded m) = .ok t ∧ parse E t = .ok (.encoded m) :=
  C03_transport E (hE ▸ ed448_goodCurve) m hs hr hv h

/-- C03: the bytes inside the text are in base64 and every byte string survives it. -/
theorem C03_base64 (d : Bytes) : b64Decode (b64Encode d) = some d := b64_roundtrip d

example : b64Encode [0x4d, 0x61] = [0x54, 0x57, 0x45, 0x3d] := by decide

example : ValidTag 0x100 ∧ ValidTag 0 ∧ DefinedFor (.data ⟨1, 1, 2, 300, [0, 0, 0, 0, 0, 0, 0, 1], [5, 6], List.replicate 20 7, []⟩) .v3 ∧
    WfMessage toyEnv (.data ⟨1, 1, 2, 300, [0, 0, 0, 0, 0, 0, 0, 1], [5, 6], List.replicate 20 7, []⟩) :=
  ⟨Or.inr (by decide), Or.inl rfl, rfl, Or.inr rfl, by decide, by decide, ⟨2, by decide, by decide⟩, rfl, by decide,
    by simp, by decide⟩

example : DefinedFor (.data4 ⟨0, 0, 3, 1, ⟨36, 12⟩, some 4, [1], List.replicate 64 7, List.replicate 64 1⟩) .v4 ∧
    WfMessage toyEnv (.data4 ⟨0, 0, 3, 1, ⟨36, 12⟩, some 4, [1], List.replicate 64 7, List.replicate 64 1⟩) :=
  ⟨rfl, Or.inl rfl, ⟨by decide, by decide, by decide⟩, by
    intro v hv; simp at hv; subst hv; exact ⟨by decide, 1, by decide, by decide⟩, by decide, by simp, by simp, by simp⟩

example : DefinedFor (.authI ⟨⟨1, 12, 3, 4, 5, 6⟩⟩) .v4 ∧ WfMessage toyEnv (.authI ⟨⟨1, 12, 3, 4, 5, 6⟩⟩) :=
  ⟨rfl, by show ∀ v ∈ [1, 12, 3, 4, 5, 6], 0 < v ∧ v < 13; decide⟩

/-! ## C10 -/

/-- C10 is false of the code: `?OTR?` (which the OTR specifications of version 1 define as a query) makes the
parser panic, and so does a whitespace prefix without a tag. -/
theorem C10_violated (E : Env) :
    parse E (OTR_MARK ++ [0x3f]) = .panic ∧ parse E TAG_MARK = .panic := by
  constructor
  · unfold parse
    rw [if_neg (by decide)]
    unfold parsePlain
    rw [if_neg (by decide)]
    have : queryAt E.nd (OTR_MARK ++ [0x3f]) = some .none := by
      simp only [queryAt, OTR_MARK]
      have h1 : lit [0x3f, 0x4f, 0x54, 0x52] ([0x3f, 0x4f, 0x54, 0x52] ++ [0x3f]) = some [0x3f] := lit_self _ _
      have h2 : lit [0x3f] [0x3f] = some [] := rfl
      simp only [h1, h2]
      rfl
    rw [firstMatch_head this]
  · unfold parse
    rw [if_neg (by decide)]
    unfold parsePlain
    rw [if_neg (by decide), firstMatch_query_none]
    · have : firstMatch wsAt TAG_MARK = some (.none, []) := by decide +kernel
      simp only [this]
    · rintro ⟨a, b, h⟩
      have h1 : (0x3f : UInt8) ∈ TAG_MARK := by
        rw [h]; simp [OTR_MARK]
      revert h1
      decide

/-- C10, as far as it holds: text that is not an encoded message makes the parser panic only if it contains
`?OTR?` or a whitespace prefix that is not followed by a block of eight blanks. -/
theorem C10_partial (E : Env) (s : Bytes) (hplain : ¬ (OTR_ENCODED_PREFIX <+: s ∧ [0x2e] <:+ s))
    (h1 : ¬ Occurs (OTR_MARK ++ [0x3f]) s)
    (h2 : ∀ a b, s = a ++ TAG_MARK ++ b → ∃ blk r, b = blk ++ r ∧ TagBlock blk) :
    parse E s ≠ .panic := by
  unfold parse
  rw [if_neg]
  · unfold parsePlain
    split
    · simp
    · split
      · simp
      · rename_i hq
        obtain ⟨t, ht, hq⟩ := firstMatch_some hq
        obtain ⟨r, rfl, hr⟩ := queryAt_some hq
        obtain ⟨r', rfl⟩ := hr rfl
        exact absurd (Occurs.of_suffix (p := OTR_MARK ++ [0x3f]) (r := r') ht (by simp)) h1
      · split
        · simp
        · rename_i hw
          obtain ⟨t, ht, hw'⟩ := firstMatch_some hw
          clear hw
          rename' hw' => hw
          unfold wsAt at hw
          cases hl : lit WHITESPACE_PREFIX t with
          | none => rw [hl] at hw; cases hw
          | some r =>
            rw [hl, Option.map_some, Option.some.injEq] at hw
            rw [lit_eq_some] at hl
            obtain ⟨a, rfl⟩ := ht
            have hw2 := wsBlocks_none hw
            exact absurd (h2 a r (by rw [hl, tag_eq, List.append_assoc])) hw2
        · simp
  · rw [Bool.and_eq_true, List.isPrefixOf_iff_prefix, List.isSuffixOf_iff_suffix]
    exact hplain

example : ¬ Occurs (OTR_MARK ++ [0x3f]) [0x68, 0x69] ∧
    ∀ a b, [0x68, 0x69] = a ++ TAG_MARK ++ b → ∃ blk r, b = blk ++ r ∧ TagBlock blk := by
  constructor
  · rintro ⟨a, b, h⟩
    have := congrArg List.length h
    simp only [List.length_append, OTR_MARK, List.length_cons, List.length_nil] at this
    omega
  · intro a b h
    have := congrArg List.length h
    simp only [List.length_append, TAG_MARK, List.length_cons, List.length_nil] at this
    omega

/-! ## C11 -/

/-- C11: a text without an OTR marker is classified as plaintext, unchanged. -/
theorem C11_plaintext (E : Env) (s : Bytes) (h1 : ¬ Occurs OTR_MARK s) (h2 : ¬ Occurs TAG_MARK s) :
    parse E s = .ok (.plaintext s) := by
  unfold parse
  rw [if_neg (by
    rw [Bool.and_eq_true, not_and]
    exact fun hc => absurd (encoded_occurs hc) h1)]
  unfold parsePlain
  rw [if_neg fun hc => h1 (error_occurs hc), firstMatch_query_none h1, firstMatch_ws_none h2]

/-- C11: a whitespace tag, with any blocks, anywhere in a text without other markers, is removed, and nothing
else is. -/
theorem C11_tagged (E : Env) (a b : Bytes) (blocks : List Bytes) (hne : blocks ≠ [])
    (h : ∀ x ∈ blocks, TagBlock x) (hb : ¬ ∃ blk r, b = blk ++ r ∧ TagBlock blk)
    (hq : ¬ Occurs OTR_MARK (a ++ TAG_MARK ++ blocks.flatten ++ b))
    (hfirst : ∀ x y, a ++ TAG_MARK ++ blocks.flatten ++ b = x ++ TAG_MARK ++ y → a.length ≤ x.length)
    (hrest : ¬ Occurs TAG_MARK b) :
    ∃ vs, parse E (a ++ TAG_MARK ++ blocks.flatten ++ b) = .ok (.tagged vs (a ++ b)) := by
  cases hl : blocks.getLast? with
  | none => rw [List.getLast?_eq_none_iff] at hl; exact absurd hl hne
  | some last => exact ⟨_, parse_tagged E hl h hb hq hfirst hrest⟩

theorem not_occurs_of_not_mem {p s : Bytes} {c : UInt8} (hp : c ∈ p) (hs : c ∉ s) : ¬ Occurs p s := by
  rintro ⟨a, b, rfl⟩
  exact hs (by simp [hp])

example : ∃ vs, parse toyEnv ([0x68] ++ TAG_MARK ++ [[32, 32, 9, 9, 32, 32, 9, 9]].flatten ++ [0x69]) =
    .ok (.tagged vs ([0x68] ++ [0x69])) := by
  refine C11_tagged toyEnv [0x68] [0x69] [[32, 32, 9, 9, 32, 32, 9, 9]] (by simp) ?_ ?_ ?_ ?_ ?_
  · intro x hx
    simp only [List.mem_cons, List.not_mem_nil, or_false] at hx
    subst hx
    exact ⟨rfl, by decide⟩
  · rintro ⟨blk, r, h1, h2, _⟩
    have := congrArg List.length h1
    simp only [List.length_append, List.length_cons, List.length_nil] at this
    omega
  · exact not_occurs_of_not_mem (c := 0x3f) (by decide) (by decide)
  · intro x y hxy
    cases x with
    | nil => simp [TAG_MARK] at hxy
    | cons _ _ => simp
  · exact not_occurs_of_not_mem (c := 32) (by decide) (by decide)
example : ¬ Occurs OTR_MARK [0x68, 0x69] ∧ ¬ Occurs TAG_MARK [0x68, 0x69] :=
  ⟨not_occurs_of_not_mem (c := 0x3f) (by decide) (by decide), not_occurs_of_not_mem (c := 32) (by decide) (by decide)⟩

/-! ## C12 -/

/-- C12 for query messages: the peer reads exactly the versions that were offered. -/
theorem C12_query (E : Env) (vs : List Version) (hne : vs ≠ []) (h : ∀ v ∈ vs, v = .v3 ∨ v = .v4) :
    ∃ t ws, serialize (.query vs) = .ok t ∧ parse E t = .ok (.query ws) ∧ ∀ v, v ∈ ws ↔ v ∈ vs := by
  have hl : vs.all Version.legal = true := by
    rw [List.all_eq_true]
    intro v hv
    rcases h v hv with rfl | rfl <;> rfl
  have hq : ∀ ds : Bytes, (∀ c ∈ ds, isDigit c = true) → ∀ rest,
      parse E (OTR_QUERY_PREFIX ++ ds ++ (0x3f :: rest)) = .ok (.query (queryVersions ([0x76] ++ ds))) := by
    intro ds hds rest
    have e : OTR_QUERY_PREFIX ++ ds ++ (0x3f :: rest) =
        [0x3f, 0x4f, 0x54, 0x52] ++ ([0x76] ++ (ds ++ 0x3f :: rest)) := by
      simp [OTR_QUERY_PREFIX]
    have e1 : queryAt E.nd (OTR_QUERY_PREFIX ++ ds ++ (0x3f :: rest)) = some (some ([0x76] ++ ds)) := by
      rw [e]
      unfold queryAt
      rw [lit_self]
      have h0 : lit [0x3f] ([0x76] ++ (ds ++ 0x3f :: rest)) = .none := rfl
      simp only [h0]
      unfold queryGroup
      have h1 : lit [0x3a] ([0x76] ++ (ds ++ 0x3f :: rest)) = .none := rfl
      simp only [h1]
      rw [lit_self]
      simp only
      rw [digitRun_run E.nd hds (by decide) (by decide) _ (by simp) rest]
      have h2 := lit_self [0x3f] rest
      simp only [List.cons_append, List.nil_append] at h2
      simp [h2]
    unfold parse
    rw [if_neg (by rw [e]; simp [OTR_ENCODED_PREFIX])]
    unfold parsePlain
    rw [if_neg (by rw [e]; simp [OTR_ERROR_PREFIX]), firstMatch_head e1]
  have hds : ∀ c ∈ uniqueVersions versionDigit vs, isDigit c = true := by
    intro c hc
    simp only [uniqueVersions, List.mem_append] at hc
    rcases hc with hc | hc <;> split at hc <;> simp [versionDigit] at hc <;> subst hc <;> decide
  refine ⟨_, queryVersions ([0x76] ++ uniqueVersions versionDigit vs),
    by simp only [serialize]; rw [if_pos ⟨hne, hl⟩], ?_, ?_⟩
  · have := hq _ hds (0x20 :: OTR_USE_INFORMATION_MESSAGE)
    rw [← this]
    simp only [List.append_assoc, List.cons_append, List.nil_append]
  · intro v
    by_cases h3 : Version.v3 ∈ vs <;> by_cases h4 : Version.v4 ∈ vs <;>
      simp only [uniqueVersions, h3, h4, if_true, if_false, versionDigit, queryVersions, List.append_nil,
        List.nil_append, List.cons_append] <;>
      constructor <;> intro hv
    all_goals first
      | (simp at hv; rcases hv with rfl | rfl <;> assumption)
      | (simp at hv; subst hv; assumption)
      | (simp at hv)
      | (rcases h v hv with rfl | rfl <;> simp_all)

example : ∀ v ∈ [Version.v4, .v3, .v4], v = .v3 ∨ v = .v4 := by decide

theorem parseTag_v3 : parseTag WHITESPACE_TAG_OTRV3 = [.v3] := by decide
theorem parseTag_v4 : parseTag WHITESPACE_TAG_OTRV4 = [.v4] := by decide

theorem tagBlock_v3 : TagBlock WHITESPACE_TAG_OTRV3 := ⟨rfl, by decide⟩
theorem tagBlock_v4 : TagBlock WHITESPACE_TAG_OTRV4 := ⟨rfl, by decide⟩

theorem not_occurs_blank {a b : Bytes} (ha : ∀ c ∈ a, c = 32 ∨ c = 9) (hb : ¬ Occurs OTR_MARK b) :
    ¬ Occurs OTR_MARK (a ++ b) := by
  induction a with
  | nil => exact hb
  | cons c a ih =>
    rintro ⟨x, y, h⟩
    cases x with
    | nil =>
      simp only [OTR_MARK, List.cons_append, List.nil_append, List.cons.injEq] at h
      rcases ha c (by simp) with hc | hc <;> rw [hc] at h <;> exact absurd h.1 (by decide)
    | cons d x =>
      simp only [List.cons_append, List.cons.injEq] at h
      exact ih (fun c hc => ha c (by simp [hc])) ⟨x, y, h.2⟩

/-- The whole of C12 for tags is false of the code: of several advertised versions the peer only reads the
last one.  Whatever the text, offering versions 3 and 4 is read as offering version 4 alone. -/
theorem C12_violated (E : Env) (m : Bytes) (h1 : ¬ Occurs OTR_MARK m) (h2 : ¬ Occurs TAG_MARK m)
    (hm : ¬ ∃ blk r, m = blk ++ r ∧ TagBlock blk) :
    ∃ t, serialize (.tagged [.v3, .v4] m) = .ok t ∧ parse E t = .ok (.tagged [.v4] m) := by
  refine ⟨_, rfl, ?_⟩
  have := parse_tagged E (a := []) (b := m) (blocks := [WHITESPACE_TAG_OTRV3, WHITESPACE_TAG_OTRV4]) rfl
    (by intro x hx; simp only [List.mem_cons, List.not_mem_nil, or_false] at hx
        rcases hx with rfl | rfl
        · exact tagBlock_v3
        · exact tagBlock_v4) hm
    (by apply not_occurs_blank _ h1; decide)
    (by intros; simp) h2
  simpa [uniqueVersions, versionTag, tag_eq, parseTag_v3, parseTag_v4] using this

/-- C12 for tags, as far as it holds: a tag for one version is read as offering that version, and the text
around it is kept. -/
theorem C12_tag_partial (E : Env) (v : Version) (hv : v = .v3 ∨ v = .v4) (m : Bytes)
    (h1 : ¬ Occurs OTR_MARK m) (h2 : ¬ Occurs TAG_MARK m) (hm : ¬ ∃ blk r, m = blk ++ r ∧ TagBlock blk) :
    ∃ t tag, serialize (.tagged [v] m) = .ok t ∧ TagOf v tag ∧ t = TAG_MARK ++ tag ++ m ∧
      parse E t = .ok (.tagged [v] m) := by
  have key : ∀ (tag : Bytes), TagBlock tag → parse E (TAG_MARK ++ tag ++ m) = .ok (.tagged (parseTag tag) m) := by
    intro tag ht
    have := parse_tagged E (a := []) (b := m) (blocks := [tag]) rfl
      (by intro x hx; simp only [List.mem_cons, List.not_mem_nil, or_false] at hx; subst hx; exact ht) hm
      (by
        apply not_occurs_blank _ h1
        intro c hc
        simp only [List.nil_append, List.flatten_cons, List.flatten_nil, List.append_nil, List.mem_append] at hc
        rcases hc with hc | hc
        · revert c; decide
        · exact ht.2 c hc)
      (by intros; simp) h2
    simpa using this
  rcases hv with rfl | rfl
  · refine ⟨_, _, rfl, rfl, ?_, ?_⟩
    · simp [uniqueVersions, versionTag, WHITESPACE_TAG_OTRV3, tag_eq]
    · simpa [uniqueVersions, versionTag, tag_eq, parseTag_v3, parseTag_v4] using key _ tagBlock_v3
  · refine ⟨_, _, rfl, rfl, ?_, ?_⟩
    · simp [uniqueVersions, versionTag, WHITESPACE_TAG_OTRV4, tag_eq]
    · simpa [uniqueVersions, versionTag, tag_eq, parseTag_v3, parseTag_v4] using key _ tagBlock_v4

example : ¬ ∃ blk r, ([0x68, 0x69] : Bytes) = blk ++ r ∧ TagBlock blk := by
  rintro ⟨blk, r, h1, h2, _⟩
  have := congrArg List.length h1
  simp only [List.length_append, List.length_cons, List.length_nil] at this
  omega

/-! ## C13 -/

/-- C13: an encoded message is only accepted with version 3 or 4, a type defined for that version and two
permitted instance tags. -/
theorem C13_header (E : Env) (s : Bytes) (m : EncodedMessage) (h : parse E s = .ok (.encoded m)) :
    (m.version = .v3 ∨ m.version = .v4) ∧ DefinedFor m.message m.version ∧ ValidTag m.sender ∧
      ValidTag m.receiver := by
  have h' : ∃ d d', readEncoded E d = .ok (m, d') := by
    unfold parse at h
    split at h
    · unfold parseEncoded at h
      split at h
      · cases h
      · rename_i d _
        simp only [runDec, Res.bind_eq_ok, Res.pure_def, Res.ok.injEq, MessageType.encoded.injEq] at h
        obtain ⟨a, h1, rfl⟩ := h
        cases hr : readEncoded E d with
        | ok p => rw [hr] at h1; obtain ⟨a', d'⟩ := p; simp at h1; subst h1; exact ⟨d, d', hr⟩
        | err e => rw [hr] at h1; cases h1
        | panic => rw [hr] at h1; cases h1
    · unfold parsePlain at h
      split at h
      · cases h
      · split at h <;> try cases h
        split at h <;> cases h
  obtain ⟨d, d', hr⟩ := h'
  unfold readEncoded at hr
  simp only [Dec.bind_eq_ok, Dec.pure_run, Res.ok.injEq, Prod.mk.injEq] at hr
  obtain ⟨v, s1, _, t, s2, _, sn, s3, h3, rc, s4, h4, b, s5, h5, rfl, _⟩ := hr
  have hd : DefinedFor b v := by
    unfold readContent at h5
    split at h5
    · repeat' split at h5
      all_goals simp only [Dec.bind_eq_ok, Dec.pure_run, Res.ok.injEq, Prod.mk.injEq, Dec.fail_run, reduceCtorEq] at h5
      all_goals obtain ⟨_, _, _, rfl, _⟩ := h5; rfl
    · repeat' split at h5
      all_goals simp only [Dec.bind_eq_ok, Dec.pure_run, Res.ok.injEq, Prod.mk.injEq, Dec.fail_run, reduceCtorEq] at h5
      all_goals obtain ⟨_, _, _, rfl, _⟩ := h5; rfl
    · simp at h5
  exact ⟨DefinedFor.version hd, hd, readTag_valid h3, readTag_valid h4⟩

/-- The hypothesis of `C13_header` holds for every message that `C03_transport` covers. -/
example (E : Env) (hc : GoodCurve E.curve) : ∃ s m, parse E s = .ok (.encoded m) := by
  obtain ⟨t, _, h⟩ := C03_transport E hc ⟨.v3, 0x100, 0, .dhKey ⟨7⟩⟩ (Or.inr (by decide)) (Or.inl rfl) rfl
    (show FitsMpi 7 from ⟨1, by decide, by decide⟩)
  exact ⟨t, _, h⟩

end Otrr.Props
