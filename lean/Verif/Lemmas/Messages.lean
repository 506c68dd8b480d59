import Verif.Lemmas.Base64
import Verif.Lemmas.Ring
import Verif.Spec.Messages
import Verif.Props.Crypto
/-! Round trips and totality of the message codecs. -/

namespace Otrr
open Spec Props

theorem fits_mpiOk {v : Nat} (h : FitsMpi v) : mpiOk v = true := by
  obtain ⟨n, hn, hv⟩ := h
  have := byteLen_le_of_lt_pow hv
  simp [mpiOk]
  omega

theorem readTag_w {t : UInt32} (h : ValidTag t) (rest : Bytes) :
    readInstanceTag (wU32 t ++ rest) = .ok (t, rest) := by
  apply readInstanceTag_w
  unfold verifyTag INSTANCE_ZERO INSTANCE_MIN_VALID
  rw [if_neg]
  rintro ⟨h1, h2⟩
  rcases h with rfl | h
  · exact absurd h1 (by decide)
  · exact absurd (UInt32.lt_of_lt_of_le h2 h) (UInt32.lt_irrefl _)

theorem verifyTag_ok {t u : UInt32} (h : verifyTag t = .ok u) : u = t ∧ ValidTag t := by
  unfold verifyTag INSTANCE_ZERO INSTANCE_MIN_VALID at h
  split at h
  · cases h
  · rename_i hn
    simp only [Res.ok.injEq] at h
    refine ⟨h.symm, ?_⟩
    unfold ValidTag
    rw [UInt32.le_iff_toNat_le]
    rw [gt_iff_lt, UInt32.lt_iff_toNat_lt, UInt32.lt_iff_toNat_lt] at hn
    by_cases h0 : t = 0
    · exact Or.inl h0
    · right
      have h1 : t.toNat ≠ 0 := fun hc => h0 (UInt32.toNat_inj.mp hc)
      have e0 : (0 : UInt32).toNat = 0 := rfl
      have e1 : (256 : UInt32).toNat = 256 := rfl
      omega

theorem verifyTag_of_valid {t : UInt32} (h : ValidTag t) : verifyTag t = .ok t := by
  unfold verifyTag INSTANCE_ZERO INSTANCE_MIN_VALID
  rw [if_neg]
  rintro ⟨h1, h2⟩
  rcases h with rfl | h
  · exact absurd h1 (by decide)
  · exact absurd (UInt32.lt_of_lt_of_le h2 h) (UInt32.lt_irrefl _)

theorem readTag_valid {s s' : Bytes} {t : UInt32} (h : readInstanceTag s = .ok (t, s')) : ValidTag t := by
  unfold readInstanceTag at h
  rw [Dec.bind_eq_ok] at h
  obtain ⟨a, s1, _, h2⟩ := h
  cases hv : verifyTag a with
  | ok u =>
    rw [hv] at h2
    simp only [Dec.lift_run_ok, Res.ok.injEq, Prod.mk.injEq] at h2
    obtain ⟨rfl, hval⟩ := verifyTag_ok hv
    exact h2.1 ▸ hval
  | err e => rw [hv] at h2; simp [Dec.lift] at h2
  | panic => rw [hv] at h2; simp [Dec.lift] at h2

theorem readFlags_w {f : UInt8} (h : f = 0 ∨ f = 1) (rest : Bytes) :
    readFlags (wU8 f ++ rest) = .ok (f, rest) := by
  unfold readFlags
  rw [Dec.bind_ok (readU8_w f rest), if_pos]
  · rfl
  · rcases h with rfl | rfl <;> rfl

theorem readKeyid_w {k : UInt32} (h : k ≠ 0) (rest : Bytes) :
    readKeyid (wU32 k ++ rest) = .ok (k, rest) := by
  unfold readKeyid
  rw [Dec.bind_ok (readU32_w k rest), if_neg h]
  rfl

theorem dataOk_of {d : Bytes} (h : d.length < 2 ^ 32) : dataOk d = true := by simpa [dataOk] using h

/-! ## Profiles -/

theorem parse_encodeVersions {vs : List Version} (h : ∀ v ∈ vs, v = .v3 ∨ v = .v4) :
    parseVersions (encodeVersions vs) = vs := by
  induction vs with
  | nil => rfl
  | cons v vs ih =>
    have ih := ih (fun x hx => h x (by simp [hx]))
    rcases h v (by simp) with rfl | rfl
    · show Version.v3 :: parseVersions (encodeVersions vs) = _
      rw [ih]
    · show Version.v4 :: parseVersions (encodeVersions vs) = _
      rw [ih]

theorem encodeVersions_length {vs : List Version} : (encodeVersions vs).length ≤ vs.length :=
  List.length_filterMap_le _ _

theorem readEdPublicKey_w {c : Curve} (h : GoodField c) {P : Point} (hP : OnCurve c P) (t : UInt16) (rest : Bytes) :
    readEdPublicKey c t ((wU16LE t ++ wPoint P) ++ rest) = .ok (P, rest) := by
  unfold readEdPublicKey
  rw [List.append_assoc, Dec.bind_ok (readU16LE_w t _), if_neg (by simp)]
  exact readPoint_w h hP rest

theorem readField_w {E : Env} (hc : GoodField E.curve) {f : Field} (h : WfField E f) (rest : Bytes) :
    readField E (wField f ++ rest) = .ok (f, rest) := by
  unfold readField
  cases f with
  | ownerTag t =>
    simp only [wField, List.append_assoc]
    rw [Dec.bind_ok (readU16_w 1 _), if_pos rfl, Dec.bind_ok (readTag_w h _)]
    rfl
  | identityKey k =>
    simp only [wField]
    rw [List.append_assoc, Dec.bind_ok (readU16_w 2 _), if_neg (by decide), if_pos rfl,
      Dec.bind_ok (readEdPublicKey_w hc h _ _)]
    rfl
  | forgingKey k =>
    simp only [wField]
    rw [List.append_assoc, Dec.bind_ok (readU16_w 3 _), if_neg (by decide), if_neg (by decide), if_pos rfl,
      Dec.bind_ok (readEdPublicKey_w hc h _ _)]
    rfl
  | versions vs =>
    simp only [wField]
    have hl := @encodeVersions_length vs
    rw [List.append_assoc, Dec.bind_ok (readU16_w 4 _), if_neg (by decide), if_neg (by decide),
      if_neg (by decide), if_pos rfl, Dec.bind_ok (readData_w (dataOk_of (by have := h.2; omega)) _),
      parse_encodeVersions h.1]
    rfl
  | expiration e =>
    simp only [wField]
    rw [List.append_assoc, Dec.bind_ok (readU16_w 5 _), if_neg (by decide), if_neg (by decide),
      if_neg (by decide), if_neg (by decide), if_pos rfl, Dec.bind_ok (readI64_w e _)]
    rfl
  | legacyKey k =>
    simp only [wField]
    have := C01_public_key_roundtrip E k ⟨h.ok, h.qlow, h.qhigh, h.p, h.g, h.y⟩ rest
    rw [List.append_assoc, Dec.bind_ok (readU16_w 6 _), if_neg (by decide), if_neg (by decide),
      if_neg (by decide), if_neg (by decide), if_neg (by decide), if_pos rfl, Dec.bind_ok this]
    rfl
  | transitionalSignature s =>
    simp only [wField]
    have := C01_signature_roundtrip.1 s ⟨h.r.1, h.r.2, h.s.1, h.s.2⟩ rest
    rw [List.append_assoc, Dec.bind_ok (readU16_w 7 _), if_neg (by decide), if_neg (by decide),
      if_neg (by decide), if_neg (by decide), if_neg (by decide), if_neg (by decide), if_pos rfl,
      Dec.bind_ok this]
    rfl

theorem readFields_w {E : Env} (hc : GoodField E.curve) {fs : List Field} (h : ∀ f ∈ fs, WfField E f)
    (rest : Bytes) : readFields E fs.length (wFields fs ++ rest) = .ok (fs, rest) := by
  induction fs with
  | nil => rfl
  | cons f fs ih =>
    have ih := ih (fun x hx => h x (by simp [hx]))
    simp only [List.length_cons, readFields, wFields, List.map_cons, List.flatten_cons, List.append_assoc]
    rw [Dec.bind_ok (readField_w hc (h f (by simp)) _)]
    unfold wFields at ih
    rw [Dec.bind_ok ih]
    rfl

theorem readPayload_w {E : Env} (hc : GoodField E.curve) {p : ClientProfilePayload} (h : WfPayload E p)
    (rest : Bytes) : readPayload E (wPayload p ++ rest) = .ok (p, rest) := by
  unfold readPayload wPayload
  obtain ⟨prof, hp⟩ := h.accepted
  have hs := C01_signature_roundtrip.2 p.signature h.sig rest
  rw [List.append_assoc, List.append_assoc, Dec.bind_ok (readU32_w _ _), UInt32.toNat_ofNat_len h.count,
    Dec.bind_ok (readFields_w hc h.fields _), Dec.bind_ok hs]
  have : Dec.lift (ClientProfilePayload.validate E ⟨p.fields, p.signature⟩) rest = .ok (prof, rest) := by
    have : ClientProfilePayload.validate E ⟨p.fields, p.signature⟩ = .ok prof := hp
    rw [this]; rfl
  rw [Dec.bind_ok this]
  rfl

theorem readRing_w {c : Curve} (hc : GoodCurve c) {s : RingSignature} (h : WfRing c s) (rest : Bytes) :
    readRing c (wRing s ++ rest) = .ok (s, rest) := (C01_point_scalar_ring_roundtrip c hc).2.2 s h rest

/-! ## Messages -/

theorem readBody_w {E : Env} (hc : GoodCurve E.curve) {v : Version} {m : EncodedMessageType}
    (hv : DefinedFor m v) (h : WfMessage E m) (rest : Bytes) :
    ∃ t b, typeCode m = .ok t ∧ wBody m = .ok b ∧ readContent E v t (b ++ rest) = .ok (m, rest) := by
  have hf := hc.field
  cases m with
  | unencoded _ => exact absurd h (by simp [WfMessage])
  | dhCommit m =>
    simp only [DefinedFor] at hv; subst hv
    refine ⟨_, _, rfl, rfl, ?_⟩
    simp only [readContent, if_true, wDHCommit, readDHCommit, List.append_assoc]
    rw [Dec.bind_run, Dec.bind_ok (readData_w (dataOk_of h.1) _), Dec.bind_ok (readData_w (dataOk_of h.2) _)]
    rfl
  | dhKey m =>
    simp only [DefinedFor] at hv; subst hv
    refine ⟨_, _, rfl, rfl, ?_⟩
    simp only [readContent, wDHKey, readDHKey]
    rw [if_neg (by decide), if_pos trivial, Dec.bind_run, Dec.bind_ok (readMpi_w (fits_mpiOk h) _)]
    rfl
  | revealSignature m =>
    simp only [DefinedFor] at hv; subst hv
    refine ⟨_, _, rfl, rfl, ?_⟩
    obtain ⟨h1, h2, h3⟩ := h
    simp only [readContent, wRevealSignature, readRevealSignature, readMac, List.append_assoc]
    rw [if_neg (by decide), if_neg (by decide), if_pos trivial, Dec.bind_run,
      Dec.bind_ok (readData_w (dataOk_of (by omega)) _), if_neg (by simp [h1]),
      Dec.bind_ok (readData_w (dataOk_of h2) _), Dec.bind_ok (readN_append h3 _)]
    rfl
  | signature m =>
    simp only [DefinedFor] at hv; subst hv
    refine ⟨_, _, rfl, rfl, ?_⟩
    obtain ⟨h2, h3⟩ := h
    simp only [readContent, wSignature, readSignature, readMac, List.append_assoc]
    rw [if_neg (by decide), if_neg (by decide), if_neg (by decide), if_pos trivial, Dec.bind_run,
      Dec.bind_ok (readData_w (dataOk_of h2) _), Dec.bind_ok (readN_append h3 _)]
    rfl
  | data m =>
    simp only [DefinedFor] at hv; subst hv
    refine ⟨_, _, rfl, rfl, ?_⟩
    obtain ⟨h1, h2, h3, h4, h5, h6, h7, h8⟩ := h
    simp only [readContent, wDataMessage, readDataMessage, readMac, readCtr, List.append_assoc]
    rw [if_neg (by decide), if_neg (by decide), if_neg (by decide), if_neg (by decide), if_pos trivial, Dec.bind_run,
      Dec.bind_ok (readFlags_w h1 _), Dec.bind_ok (readKeyid_w h2 _), Dec.bind_ok (readKeyid_w h3 _),
      Dec.bind_ok (readMpi_w (fits_mpiOk h4) _), Dec.bind_ok (readN_append h5 _),
      Dec.bind_ok (readData_w (dataOk_of h6) _), Dec.bind_ok (readN_append h7 _),
      Dec.bind_ok (readData_w (dataOk_of h8) _)]
    rfl
  | identity m =>
    simp only [DefinedFor] at hv; subst hv
    refine ⟨_, _, rfl, rfl, ?_⟩
    obtain ⟨h1, h2, h3, h4, h5⟩ := h
    simp only [readContent, wIdentity, readIdentity, List.append_assoc]
    rw [if_pos trivial, Dec.bind_run, Dec.bind_ok (readPayload_w hf h1 _), Dec.bind_ok (readPoint_w hf h2 _),
      Dec.bind_ok (readMpi_w (fits_mpiOk h3) _), Dec.bind_ok (readPoint_w hf h4 _),
      Dec.bind_ok (readMpi_w (fits_mpiOk h5) _)]
    rfl
  | authR m =>
    simp only [DefinedFor] at hv; subst hv
    refine ⟨_, _, rfl, rfl, ?_⟩
    obtain ⟨h1, h2, h3, h4, h5, h6⟩ := h
    simp only [readContent, wAuthR, readAuthR, List.append_assoc]
    rw [if_neg (by decide), if_pos trivial, Dec.bind_run, Dec.bind_ok (readPayload_w hf h1 _),
      Dec.bind_ok (readPoint_w hf h2 _), Dec.bind_ok (readMpi_w (fits_mpiOk h3) _),
      Dec.bind_ok (readRing_w hc h4 _), Dec.bind_ok (readPoint_w hf h5 _),
      Dec.bind_ok (readMpi_w (fits_mpiOk h6) _)]
    rfl
  | authI m =>
    simp only [DefinedFor] at hv; subst hv
    refine ⟨_, _, rfl, rfl, ?_⟩
    simp only [readContent, wAuthI, readAuthI]
    rw [if_neg (by decide), if_neg (by decide), if_pos trivial, Dec.bind_run, Dec.bind_ok (readRing_w hc h _)]
    rfl
  | data4 m =>
    simp only [DefinedFor] at hv; subst hv
    obtain ⟨h1, h2, h3, h4, h5, h6, h7⟩ := h
    refine ⟨0x03, wDataMessage4 m, rfl, ?_, ?_⟩
    · simp only [wBody, Nat.mod_eq_zero_of_dvd h7, if_true]
    have hd : mpiOk (m.dh.getD 0) = true := by
      cases hm : m.dh with
      | none => exact fits_mpiOk ⟨1, by decide, by decide⟩
      | some v => exact fits_mpiOk (h3 v hm).2
    have hback : (if m.dh.getD 0 = 0 then Option.none else some (m.dh.getD 0)) = m.dh := by
      cases hm : m.dh with
      | none => rfl
      | some v => simp [(h3 v hm).1]
    simp only [readContent, wDataMessage4, readDataMessage4, readMac4, List.append_assoc]
    rw [if_neg (by decide), if_neg (by decide), if_neg (by decide), if_pos trivial, Dec.bind_run,
      Dec.bind_ok (readFlags_w h1 _), Dec.bind_ok (readU32_w _ _), Dec.bind_ok (readU32_w _ _),
      Dec.bind_ok (readU32_w _ _), Dec.bind_ok (readPoint_w hf h2 _), Dec.bind_ok (readMpi_w hd _),
      Dec.bind_ok (readData_w (dataOk_of h4) _), Dec.bind_ok (readN_append h5 _),
      Dec.bind_ok (readData_w (dataOk_of h6) _), hback]
    rfl

theorem readVersion_w {v : Version} (h : v = .v3 ∨ v = .v4) :
    ∃ w, encodeVersion v = .ok w ∧ ∀ rest, readVersion (wU16 w ++ rest) = .ok (v, rest) := by
  rcases h with rfl | rfl
  · refine ⟨3, rfl, fun rest => ?_⟩
    unfold readVersion
    rw [Dec.bind_ok (readU16_w 3 _)]
    rfl
  · refine ⟨4, rfl, fun rest => ?_⟩
    unfold readVersion
    rw [Dec.bind_ok (readU16_w 4 _)]
    rfl

theorem DefinedFor.version {m : EncodedMessageType} {v : Version} (h : DefinedFor m v) : v = .v3 ∨ v = .v4 := by
  cases m <;> simp_all [DefinedFor]

theorem readEncoded_w {E : Env} (hc : GoodCurve E.curve) {m : EncodedMessage}
    (hs : ValidTag m.sender) (hr : ValidTag m.receiver) (hv : DefinedFor m.message m.version)
    (h : WfMessage E m.message) (rest : Bytes) :
    ∃ b, encodeEncoded m = .ok b ∧ readEncoded E (b ++ rest) = .ok (m, rest) := by
  obtain ⟨w, hw, hwr⟩ := readVersion_w (DefinedFor.version hv)
  obtain ⟨t, b, ht, hb, hbr⟩ := readBody_w hc hv h rest
  refine ⟨wU16 w ++ wU8 t ++ wU32 m.sender ++ wU32 m.receiver ++ b, ?_, ?_⟩
  · simp [encodeEncoded, hw, ht, hb]
  · unfold readEncoded
    simp only [List.append_assoc]
    rw [Dec.bind_ok (hwr _), Dec.bind_ok (readU8_w t _), Dec.bind_ok (readTag_w hs _),
      Dec.bind_ok (readTag_w hr _), Dec.bind_ok hbr]
    rfl

theorem parse_serialize {E : Env} (hc : GoodCurve E.curve) {m : EncodedMessage}
    (hs : ValidTag m.sender) (hr : ValidTag m.receiver) (hv : DefinedFor m.message m.version)
    (h : WfMessage E m.message) :
    ∃ t, serialize (.encoded m) = .ok t ∧ parse E t = .ok (.encoded m) := by
  obtain ⟨b, hb, hbr⟩ := readEncoded_w hc hs hr hv h []
  rw [List.append_nil] at hbr
  refine ⟨OTR_ENCODED_PREFIX ++ b64Encode b ++ OTR_ENCODED_SUFFIX, by simp [serialize, hb], ?_⟩
  unfold parse
  have h1 : OTR_ENCODED_PREFIX.isPrefixOf (OTR_ENCODED_PREFIX ++ b64Encode b ++ OTR_ENCODED_SUFFIX) = true := by
    simp [List.append_assoc]
  have h2 : OTR_ENCODED_SUFFIX.isSuffixOf (OTR_ENCODED_PREFIX ++ b64Encode b ++ OTR_ENCODED_SUFFIX) = true := by
    rw [List.isSuffixOf_iff_suffix]
    exact List.suffix_append _ _
  have hlen : OTR_ENCODED_PREFIX.length = 5 := rfl
  have hlen2 : OTR_ENCODED_SUFFIX.length = 1 := rfl
  have h3 : ((OTR_ENCODED_PREFIX ++ b64Encode b ++ OTR_ENCODED_SUFFIX).drop 5).take
      ((OTR_ENCODED_PREFIX ++ b64Encode b ++ OTR_ENCODED_SUFFIX).length - 6) = b64Encode b := by
    rw [List.append_assoc, List.drop_append_of_le_length (by omega)]
    have : OTR_ENCODED_PREFIX.drop 5 = [] := rfl
    rw [this, List.nil_append]
    simp only [List.length_append, hlen, hlen2]
    rw [List.take_append_of_le_length (by omega), List.take_of_length_le (by omega)]
  rw [h1, h2, h3]
  simp [parseEncoded, b64_roundtrip, runDec, hbr]

end Otrr
