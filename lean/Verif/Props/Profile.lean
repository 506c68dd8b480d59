import Verif.Props.Messages
/-! C56 and C57: client profiles.  C02 and C36 for decoding messages. -/

namespace Otrr.Props
open Otrr Otrr.Spec

/-! ## C56 -/

/-- C56: a well-formed payload that validates survives encoding and decoding. -/
theorem C56_payload_roundtrip (E : Env) (hc : GoodField E.curve) :
    RoundTrip (WfPayload E) wPayload (readPayload E) :=
  fun _ h rest => readPayload_w hc h rest

/-- The legacy key signs so that its public key verifies. -/
def DsaCorrect (E : Env) (k : DSAKeypair) : Prop := ∀ d, k.pk.validate E (k.sign E d) d = .ok ()

theorem collect_base (p : ClientProfile) (fs : List Field) :
    collectFields {} (p.baseFields ++ fs) =
      collectFields ⟨some p.ownerTag, some p.identityKey, some p.forgingKey, p.versions, some p.expiration,
        p.legacyKey, .none⟩ fs := by
  cases h : p.legacyKey <;> simp [ClientProfile.baseFields, h, collectFields, collectField]

theorem sign_validates (E : Env) (hc : GoodCurve E.curve) (p : ClientProfile) (rk : Bytes)
    (legacy : Option DSAKeypair)
    (hik : p.identityKey = (EdDSAKeyPair.generate E rk).pub) (hlk : p.legacyKey = legacy.map DSAKeypair.pk)
    (hvs : p.versions ≠ [])
    (hv3 : Version.v3 ∈ p.versions → legacy.isSome) (hdsa : ∀ k, legacy = some k → DsaCorrect E k)
    (h1 : ((EdDSAKeyPair.generate E rk).sign E (wFields (p.signedFields E legacy))).r ≠ Point.identity.encode)
    (h2 : NonZero ((EdDSAKeyPair.generate E rk).sign E (wFields (p.signedFields E legacy))).s) :
    ClientProfilePayload.validate E ⟨p.signedFields E legacy,
      (EdDSAKeyPair.generate E rk).sign E (wFields (p.signedFields E legacy))⟩ = .ok p := by
  have hed := C63_eddsa E hc rk (wFields (p.signedFields E legacy)) h1 h2
  generalize hsig : (EdDSAKeyPair.generate E rk).sign E (wFields (p.signedFields E legacy)) = sig at hed ⊢
  rw [← hik] at hed
  unfold ClientProfilePayload.validate
  simp only
  cases legacy with
  | none =>
    simp only [Option.map_none] at hlk
    have e : p.signedFields E .none = p.baseFields ++ [] := by
      simp [ClientProfile.signedFields, hlk]
    rw [e] at hed ⊢
    rw [collect_base]
    simp only [collectFields, Res.bind_ok]
    rw [if_neg hvs, if_neg (by rintro ⟨h, _⟩; simpa using hv3 h), if_neg (by simp [hlk]), hed, hlk]
    simp only [verifyTransitional, Res.bind_ok, Res.pure_def]
    obtain ⟨a, b, c, d, e, f⟩ := p
    simp_all
  | some k =>
    simp only [Option.map_some] at hlk
    have e : p.signedFields E (some k) =
        p.baseFields ++ [.transitionalSignature (k.sign E (wFields p.baseFields))] := by
      simp [ClientProfile.signedFields, hlk]
    have ef : (p.signedFields E (some k)).filter Field.signedByLegacy = p.baseFields := by
      rw [e, List.filter_append]
      simp [ClientProfile.baseFields, hlk, Field.signedByLegacy]
    have hd := hdsa k rfl (wFields p.baseFields)
    rw [e] at hed ef ⊢
    rw [collect_base]
    simp only [collectFields, collectField, Option.isSome_none, Bool.false_eq_true, if_false, Res.bind_ok]
    rw [if_neg hvs, if_neg (by simp), if_neg (by simp [hlk]), hed, hlk]
    simp only [verifyTransitional, ef, hd, Res.bind_ok, Res.pure_def]
    obtain ⟨a, b, c, d, e, f⟩ := p
    simp_all

/-- A freshly signed profile is accepted and well-formed. -/
theorem signed_wf (E : Env) (hc : GoodCurve E.curve) (p : ClientProfile) (rk : Bytes)
    (legacy : Option DSAKeypair)
    (hik : p.identityKey = (EdDSAKeyPair.generate E rk).pub) (hlk : p.legacyKey = legacy.map DSAKeypair.pk)
    (htag : ValidTag p.ownerTag) (hfk : OnCurve E.curve p.forgingKey)
    (hvs : p.versions ≠ []) (hvl : ∀ v ∈ p.versions, v = .v3 ∨ v = .v4) (hvn : p.versions.length < 2 ^ 32)
    (hv3 : Version.v3 ∈ p.versions → legacy.isSome)
    (hdsa : ∀ k, legacy = some k → DsaCorrect E k ∧ WfDsaKey E k.pk ∧ ∀ d, WfDsaSig (k.sign E d))
    (h1 : ((EdDSAKeyPair.generate E rk).sign E (wFields (p.signedFields E legacy))).r ≠ Point.identity.encode)
    (h2 : NonZero ((EdDSAKeyPair.generate E rk).sign E (wFields (p.signedFields E legacy))).s) :
    ∃ payload, p.sign E (EdDSAKeyPair.generate E rk) legacy = .ok payload ∧ payload.validate E = .ok p ∧
      WfPayload E payload := by
  have hv := sign_validates E hc p rk legacy hik hlk hvs hv3 (fun k hk => (hdsa k hk).1) h1 h2
  have hl : p.versions.all Version.legal = true := by
    rw [List.all_eq_true]
    intro v hv
    rcases hvl v hv with rfl | rfl <;> rfl
  have hlen : (p.signedFields E legacy).length < 2 ^ 32 := by
    unfold ClientProfile.signedFields ClientProfile.baseFields
    cases hp : p.legacyKey <;> cases legacy <;> simp
  refine ⟨⟨p.signedFields E legacy, (EdDSAKeyPair.generate E rk).sign E (wFields (p.signedFields E legacy))⟩, ?_, hv, ?_⟩
  · have ha : Res.assert (decide (p.identityKey = (EdDSAKeyPair.generate E rk).pub)) = .ok () := by
      rw [Res.assert_eq_ok]; simp [hik]
    have hb : Res.assert (decide (p.legacyKey.isNone = legacy.isNone)) = .ok () := by
      rw [Res.assert_eq_ok, hlk]; cases legacy <;> rfl
    have hcc : Res.assert (p.versions.all Version.legal) = .ok () := by rw [Res.assert_eq_ok]; exact hl
    have ht : Res.assert true = .ok () := rfl
    simp only [ClientProfile.sign, ha, hb, hcc, hv, Res.bind_ok, Res.isOk, ht, Res.pure_def]
  · refine ⟨?_, hlen, ?_, p, hv⟩
    · intro f hf
      simp only [ClientProfile.signedFields, List.mem_append] at hf
      rcases hf with hf | hf
      · simp only [ClientProfile.baseFields, List.mem_append, List.mem_cons, List.not_mem_nil, or_false] at hf
        rcases hf with (rfl | rfl | rfl | rfl | rfl) | hf
        · exact htag
        · show OnCurve E.curve p.identityKey
          rw [hik]
          exact (mulG_good hc _).1
        · exact hfk
        · exact ⟨hvl, hvn⟩
        · exact trivial
        · cases hp : p.legacyKey with
          | none => simp [hp] at hf
          | some k =>
            rw [hp] at hf
            simp only [List.mem_cons, List.not_mem_nil, or_false] at hf
            subst hf
            cases legacy with
            | none => simp [hp] at hlk
            | some kp =>
              rw [hp] at hlk
              simp only [Option.map_some, Option.some.injEq] at hlk
              rw [hlk]
              exact (hdsa kp rfl).2.1
      · split at hf
        · rename_i kp _ _
          simp only [List.mem_cons, List.not_mem_nil, or_false] at hf
          subst hf
          exact (hdsa _ rfl).2.2 _
        · simp at hf
    · constructor
      · show ((EdDSAKeyPair.generate E rk).sign E _).r.length = 57
        simp only [EdDSAKeyPair.sign]
        exact Point.encode_length _
      · show ((EdDSAKeyPair.generate E rk).sign E _).s.length = 57
        simp [EdDSAKeyPair.sign]

/-- C56: a freshly signed profile is accepted: signing succeeds, the payload validates to exactly the signed
profile, and a peer that decodes the bytes gets that payload.  The hypotheses on the signature are those of
C63; `DsaCorrect` is the correctness of the DSA library. -/
theorem C56_fresh_profile_accepted (E : Env) (hc : GoodCurve E.curve) (p : ClientProfile) (rk : Bytes)
    (legacy : Option DSAKeypair)
    (hik : p.identityKey = (EdDSAKeyPair.generate E rk).pub) (hlk : p.legacyKey = legacy.map DSAKeypair.pk)
    (htag : ValidTag p.ownerTag) (hfk : OnCurve E.curve p.forgingKey)
    (hvs : p.versions ≠ []) (hvl : ∀ v ∈ p.versions, v = .v3 ∨ v = .v4) (hvn : p.versions.length < 2 ^ 32)
    (hv3 : Version.v3 ∈ p.versions → legacy.isSome)
    (hdsa : ∀ k, legacy = some k → DsaCorrect E k ∧ WfDsaKey E k.pk ∧ ∀ d, WfDsaSig (k.sign E d))
    (h1 : ((EdDSAKeyPair.generate E rk).sign E (wFields (p.signedFields E legacy))).r ≠ Point.identity.encode)
    (h2 : NonZero ((EdDSAKeyPair.generate E rk).sign E (wFields (p.signedFields E legacy))).s) :
    ∃ payload, p.sign E (EdDSAKeyPair.generate E rk) legacy = .ok payload ∧ payload.validate E = .ok p ∧
      ∀ rest, readPayload E (wPayload payload ++ rest) = .ok (payload, rest) := by
  obtain ⟨payload, h3, h4, h5⟩ := signed_wf E hc p rk legacy hik hlk htag hfk hvs hvl hvn hv3 hdsa h1 h2
  exact ⟨payload, h3, h4, fun rest => readPayload_w hc.field h5 rest⟩

theorem generate_onCurve {E : Env} (hc : GoodCurve E.curve) (rk : Bytes) :
    OnCurve E.curve (EdDSAKeyPair.generate E rk).pub := (mulG_good hc _).1

/-- A toy profile for the examples. -/
def toyProfile : ClientProfile :=
  ⟨0x100, (EdDSAKeyPair.generate toyEnv [7]).pub, toyCurve.G, [.v4], 1000, .none⟩

example : ∃ payload, toyProfile.sign toyEnv (EdDSAKeyPair.generate toyEnv [7]) .none = .ok payload ∧
    payload.validate toyEnv = .ok toyProfile ∧
      ∀ rest, readPayload toyEnv (wPayload payload ++ rest) = .ok (payload, rest) := by
  refine C56_fresh_profile_accepted toyEnv toy_goodCurve toyProfile [7] .none (by simp only [toyProfile]) (by simp only [toyProfile, Option.map_none]) (Or.inr (by decide))
    toy_goodCurve.base (by decide) (by decide) (by decide) (by decide) (by simp) (by decide +kernel) ?_
  exact anyNonzero_iff.mp (by decide +kernel)

/-! ## C57 -/

/-- C57, as far as it holds: the bytes of an accepted payload decode to fields among which there is exactly
one owner tag, identity key, forging key and expiration, at most one legacy key and transitional signature,
and exactly one versions field that is not empty; the EdDSA signature verifies under the identity key of the
payload over all its fields, and the transitional signature is there exactly with a legacy key, is required
for version 3, and verifies under that key over the other fields.  Missing: an empty versions field may
precede the other one. -/
theorem C57_partial (E : Env) (s rest : Bytes) (p : ClientProfilePayload) (h : readPayload E s = .ok (p, rest)) :
    ∃ prof, p.validate E = .ok prof ∧
    p.fields.filter (kind · = 1) = [.ownerTag prof.ownerTag] ∧
    p.fields.filter (kind · = 2) = [.identityKey prof.identityKey] ∧
    p.fields.filter (kind · = 3) = [.forgingKey prof.forgingKey] ∧
    prof.versions ≠ [] ∧
    p.fields.filter (fun f => kind f = 4 ∧ f ≠ .versions []) = [.versions prof.versions] ∧
    p.fields.filter (kind · = 5) = [.expiration prof.expiration] ∧
    p.fields.filter (kind · = 6) = prof.legacyKey.toList.map .legacyKey ∧
    edValidate E prof.identityKey p.signature (wFields p.fields) = .ok () ∧
    (prof.legacyKey = .none → p.fields.filter (kind · = 7) = []) ∧
    (∀ k, prof.legacyKey = some k → ∃ ts, p.fields.filter (kind · = 7) = [.transitionalSignature ts] ∧
      k.validate E ts (wFields (p.fields.filter (kind · ≠ 7))) = .ok ()) ∧
    (Version.v3 ∈ prof.versions → prof.legacyKey.isSome) := by
  unfold readPayload at h
  simp only [Dec.bind_eq_ok, Dec.pure_run, Res.ok.injEq, Prod.mk.injEq] at h
  obtain ⟨n, s1, _, fs, s2, _, sig, s3, _, prof, s4, h4, rfl, _⟩ := h
  cases hv : ClientProfilePayload.validate E ⟨fs, sig⟩ with
  | ok a => exact ⟨a, rfl, payload_validate_spec hv⟩
  | err e => rw [hv] at h4; simp [Dec.lift] at h4
  | panic => rw [hv] at h4; simp [Dec.lift] at h4

/-- The fields of a payload with two versions fields, the first one empty. -/
def twoVersions : List Field :=
  [.versions [], .ownerTag 0x100, .identityKey (EdDSAKeyPair.generate toyEnv [7]).pub, .forgingKey toyCurve.G,
    .versions [.v4], .expiration 1000]

/-- C57, the exclusion of duplicate fields, is false of the code: a payload with two versions fields, of which
the first is empty, is accepted.  The toy primitives stand for any primitives. -/
theorem C57_violated : ∃ (p : ClientProfilePayload) (prof : ClientProfile),
    (p.fields.filter (kind · = 4)).length = 2 ∧ p.validate toyEnv = .ok prof ∧
    readPayload toyEnv (wPayload p) = .ok (p, []) := by
  have hed : edValidate toyEnv (EdDSAKeyPair.generate toyEnv [7]).pub
      ((EdDSAKeyPair.generate toyEnv [7]).sign toyEnv (wFields twoVersions)) (wFields twoVersions) = .ok () := by
    apply C63_eddsa toyEnv toy_goodCurve
    · decide +kernel
    · exact anyNonzero_iff.mp (by decide +kernel)
  have hpub : OnCurve toyEnv.curve (EdDSAKeyPair.generate toyEnv [7]).pub :=
    generate_onCurve (E := toyEnv) toy_goodCurve [7]
  have hv : ClientProfilePayload.validate toyEnv
      ⟨twoVersions, (EdDSAKeyPair.generate toyEnv [7]).sign toyEnv (wFields twoVersions)⟩ =
        .ok ⟨0x100, (EdDSAKeyPair.generate toyEnv [7]).pub, toyCurve.G, [.v4], 1000, .none⟩ := by
    unfold ClientProfilePayload.validate
    generalize (EdDSAKeyPair.generate toyEnv [7]).sign toyEnv (wFields twoVersions) = sig at hed ⊢
    have hcol : collectFields {} twoVersions = .ok ⟨some 0x100, some (EdDSAKeyPair.generate toyEnv [7]).pub,
        some toyCurve.G, [.v4], some 1000, .none, .none⟩ := by
      simp [twoVersions, collectFields, collectField]
    simp only [hcol, Res.bind_ok]
    rw [if_neg (by decide), if_neg (by decide), if_neg (by decide), hed]
    rfl
  refine ⟨_, _, ?_, hv, ?_⟩
  · simp [twoVersions, kind]
  · have := readPayload_w (E := toyEnv) toy_goodField (p := ⟨twoVersions, _⟩) ⟨?_, by simp [twoVersions], ?_, _, hv⟩ []
    · rwa [List.append_nil] at this
    · intro f hf
      simp only [twoVersions, List.mem_cons, List.not_mem_nil, or_false] at hf
      rcases hf with rfl | rfl | rfl | rfl | rfl | rfl
      · exact ⟨by simp, by decide⟩
      · exact Or.inr (by decide)
      · exact hpub
      · exact toy_goodCurve.base
      · exact ⟨by simp, by decide⟩
      · trivial
    · exact ⟨Point.encode_length _, by simp [EdDSAKeyPair.sign]⟩

/-! ## C02 and C36 for decoding messages -/

/-- C02: the readers of all OTRv3 messages, of client profiles, Identity messages and OTRv4 data messages
never panic, consume a prefix of their input, and depend on nothing else. -/
theorem C02_message_readers_total (E : Env) :
    TotalPrefixReader readDHCommit ∧ TotalPrefixReader readDHKey ∧ TotalPrefixReader readRevealSignature ∧
    TotalPrefixReader readSignature ∧ TotalPrefixReader readDataMessage ∧ TotalPrefixReader (readPayload E) ∧
    TotalPrefixReader (readIdentity E) ∧ TotalPrefixReader (readDataMessage4 E) :=
  ⟨readDHCommit_safe, readDHKey_safe, readRevealSignature_safe, readSignature_safe, readDataMessage_safe,
    readPayload_safe E, readIdentity_safe E, readDataMessage4_safe E⟩

/-- A reader that panics only on input with 57 zero bytes in it. -/
def Mostly (d : Dec α) : Prop :=
  ∀ s, (d s = .panic → Occurs (List.replicate 57 0) s) ∧ ∀ a s', d s = .ok (a, s') → ∃ pre, s = pre ++ s'

theorem Mostly.of_safe {d : Dec α} (h : d.Safe) : Mostly d :=
  fun s => ⟨fun hp => absurd hp (h s).1, fun a s' ho => let ⟨p, hp, _⟩ := (h s).2 a s' ho; ⟨p, hp⟩⟩

theorem Mostly.bind {x : Dec α} {f : α → Dec β} (hx : Mostly x) (hf : ∀ a, Mostly (f a)) : Mostly (x >>= f) := by
  intro s
  constructor
  · rw [Dec.bind_eq_panic]
    rintro (h | ⟨a, s', h1, h2⟩)
    · exact (hx s).1 h
    · obtain ⟨pre, rfl⟩ := (hx s).2 _ _ h1
      obtain ⟨u, v, rfl⟩ := (hf a s').1 h2
      exact ⟨pre ++ u, v, by simp only [List.append_assoc]⟩
  · intro b s' h
    rw [Dec.bind_eq_ok] at h
    obtain ⟨a, s1, h1, h2⟩ := h
    obtain ⟨p, rfl⟩ := (hx s).2 _ _ h1
    obtain ⟨q, rfl⟩ := (hf a s1).2 _ _ h2
    exact ⟨p ++ q, by simp only [List.append_assoc]⟩

theorem readScalar_mostly (c : Curve) : Mostly (readScalar c) := by
  intro s
  obtain ⟨h1, h2⟩ := C02_scalar_partial c s
  refine ⟨fun hp => ⟨[], s.drop 57, ?_⟩, fun a s' ho => ⟨_, (h2 a s' ho).1⟩⟩
  rw [← h1 hp]
  simp

theorem readRing_mostly (c : Curve) : Mostly (readRing c) :=
  (readScalar_mostly c).bind fun _ => (readScalar_mostly c).bind fun _ => (readScalar_mostly c).bind fun _ =>
    (readScalar_mostly c).bind fun _ => (readScalar_mostly c).bind fun _ => (readScalar_mostly c).bind fun _ =>
      .of_safe (.pure _)

theorem readContent_mostly (E : Env) (v : Version) (t : UInt8) : Mostly (readContent E v t) := by
  unfold readContent
  split
  · split
    · exact .of_safe (readDHCommit_safe.bind fun _ => .pure _)
    · split
      · exact .of_safe (readDHKey_safe.bind fun _ => .pure _)
      · split
        · exact .of_safe (readRevealSignature_safe.bind fun _ => .pure _)
        · split
          · exact .of_safe (readSignature_safe.bind fun _ => .pure _)
          · split
            · exact .of_safe (readDataMessage_safe.bind fun _ => .pure _)
            · exact .of_safe (.fail _)
  · split
    · exact .of_safe ((readIdentity_safe E).bind fun _ => .pure _)
    · split
      · refine Mostly.bind ?_ fun _ => .of_safe (.pure _)
        exact (Mostly.of_safe (readPayload_safe E)).bind fun _ => (Mostly.of_safe (readPoint_safe _)).bind fun _ =>
          (Mostly.of_safe readMpi_safe).bind fun _ => (readRing_mostly _).bind fun _ =>
            (Mostly.of_safe (readPoint_safe _)).bind fun _ => (Mostly.of_safe readMpi_safe).bind fun _ =>
              .of_safe (.pure _)
      · split
        · exact Mostly.bind ((readRing_mostly _).bind fun _ => .of_safe (.pure _)) fun _ => .of_safe (.pure _)
        · split
          · exact .of_safe ((readDataMessage4_safe E).bind fun _ => .pure _)
          · exact .of_safe (.fail _)
  · exact .of_safe (.fail _)

theorem readEncoded_mostly (E : Env) : Mostly (readEncoded E) :=
  (Mostly.of_safe readVersion_safe).bind fun _ => (Mostly.of_safe readU8_safe).bind fun _ =>
    (Mostly.of_safe readInstanceTag_safe).bind fun _ => (Mostly.of_safe readInstanceTag_safe).bind fun _ =>
      (readContent_mostly E _ _).bind fun _ => .of_safe (.pure _)

/-- C36, decoding, as far as it holds: decoding any encoded message, in particular any Identity, Auth-R or
Auth-I message, panics only if the message contains 57 zero bytes in a row. -/
theorem C36_decode_partial (E : Env) (s : Bytes) (h : parseEncoded E s = .panic) :
    ∃ d, b64Decode s = some d ∧ Occurs (List.replicate 57 0) d := by
  unfold parseEncoded at h
  split at h
  · cases h
  · rename_i d hd
    refine ⟨d, hd, (readEncoded_mostly E d).1 ?_⟩
    simp only [runDec, Res.bind_eq_panic, Res.pure_def, reduceCtorEq, and_false, exists_false, or_false] at h
    cases hr : readEncoded E d with
    | ok p => rw [hr] at h; cases h
    | err e => rw [hr] at h; cases h
    | panic => rfl

/-- C36 is false of the code: an Auth-I message whose first scalar is zero crashes the client that parses it,
in any state, with any instance tags. -/
theorem C36_violated (E : Env) (s r : UInt32) (hs : ValidTag s) (hr : ValidTag r) (rest : Bytes) :
    parse E (OTR_ENCODED_PREFIX ++ b64Encode (wU16 4 ++ wU8 0x37 ++ wU32 s ++ wU32 r ++
      (List.replicate 57 0 ++ rest)) ++ OTR_ENCODED_SUFFIX) = .panic := by
  have hd : readEncoded E (wU16 4 ++ wU8 0x37 ++ wU32 s ++ wU32 r ++ (List.replicate 57 0 ++ rest)) = .panic := by
    unfold readEncoded readVersion
    simp only [List.append_assoc]
    rw [Dec.bind_run, Dec.bind_ok (readU16_w 4 _), if_neg (by decide), if_neg (by decide), if_pos rfl]
    simp only [Dec.pure_run]
    rw [Dec.bind_ok (readU8_w _ _), Dec.bind_ok (readTag_w hs _), Dec.bind_ok (readTag_w hr _)]
    have : readContent E .v4 0x37 (List.replicate 57 0 ++ rest) = .panic := by
      simp only [readContent]
      rw [if_neg (by decide), if_neg (by decide), if_pos trivial]
      simp only [readAuthI, readRing, Dec.bind_eq_panic, C02_violated_scalar, true_or]
    rw [Dec.bind_run, this]
  generalize wU16 4 ++ wU8 0x37 ++ wU32 s ++ wU32 r ++ (List.replicate 57 0 ++ rest) = b at hd
  unfold parse
  have h1 : OTR_ENCODED_PREFIX.isPrefixOf (OTR_ENCODED_PREFIX ++ b64Encode b ++ OTR_ENCODED_SUFFIX) = true := by
    simp [List.append_assoc]
  have h2 : OTR_ENCODED_SUFFIX.isSuffixOf (OTR_ENCODED_PREFIX ++ b64Encode b ++ OTR_ENCODED_SUFFIX) = true := by
    rw [List.isSuffixOf_iff_suffix]
    exact List.suffix_append _ _
  have hlen : OTR_ENCODED_PREFIX.length = 5 := rfl
  have hlen2 : OTR_ENCODED_SUFFIX.length = 1 := rfl
  have h3 : ((OTR_ENCODED_PREFIX ++ b64Encode b ++ OTR_ENCODED_SUFFIX).drop 5).take
      ((OTR_ENCODED_PREFIX ++ b64Encode b ++ OTR_ENCODED_SUFFIX).length - 6) = b64Encode b := by
    rw [List.append_assoc, List.drop_append_of_le_length (by omega)]
    have : OTR_ENCODED_PREFIX.drop 5 = [] := rfl
    rw [this, List.nil_append]
    simp only [List.length_append, hlen, hlen2]
    rw [List.take_append_of_le_length (by omega), List.take_of_length_le (by omega)]
  rw [h1, h2, h3]
  simp [parseEncoded, b64_roundtrip, runDec, hd]

end Otrr.Props
