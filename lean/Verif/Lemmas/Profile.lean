import Verif.Lemmas.Messages
/-! What an accepted client profile payload looks like; totality of the message readers. -/

namespace Otrr
open Spec Props

/-- The collected versions as fields. -/
def versionFields (vs : List Version) : List Field := if vs = [] then [] else [.versions vs]

/-- The fields collected so far, by kind. -/
structure Collected (a a' : ProfileFields) (fs : List Field) : Prop where
  tag : a'.ownerTag.toList.map Field.ownerTag = a.ownerTag.toList.map Field.ownerTag ++ fs.filter (kind · = 1)
  ik : a'.identityKey.toList.map Field.identityKey =
    a.identityKey.toList.map Field.identityKey ++ fs.filter (kind · = 2)
  fk : a'.forgingKey.toList.map Field.forgingKey =
    a.forgingKey.toList.map Field.forgingKey ++ fs.filter (kind · = 3)
  vs : versionFields a'.versions = versionFields a.versions ++ fs.filter (fun f => kind f = 4 ∧ f ≠ .versions [])
  exp : a'.expiration.toList.map Field.expiration =
    a.expiration.toList.map Field.expiration ++ fs.filter (kind · = 5)
  lk : a'.legacyKey.toList.map Field.legacyKey = a.legacyKey.toList.map Field.legacyKey ++ fs.filter (kind · = 6)
  ts : a'.transitional.toList.map Field.transitionalSignature =
    a.transitional.toList.map Field.transitionalSignature ++ fs.filter (kind · = 7)

theorem collectField_spec {a a' : ProfileFields} {f : Field} (h : collectField a f = .ok a') :
    Collected a a' [f] := by
  cases f <;> simp only [collectField] at h <;> split at h <;> (try cases h) <;> rename_i hn <;>
    constructor <;> simp_all [kind, versionFields]
  · split <;> simp_all

theorem Collected.refl (a : ProfileFields) : Collected a a [] := by
  constructor <;> simp

theorem Collected.trans {a b c : ProfileFields} {f : Field} {fs : List Field} (h1 : Collected a b [f])
    (h2 : Collected b c fs) : Collected a c (f :: fs) := by
  have e : ∀ p : Field → Bool, (f :: fs).filter p = [f].filter p ++ fs.filter p :=
    fun p => by rw [← List.filter_append]; rfl
  constructor
  · rw [h2.tag, h1.tag, e, List.append_assoc]
  · rw [h2.ik, h1.ik, e, List.append_assoc]
  · rw [h2.fk, h1.fk, e, List.append_assoc]
  · rw [h2.vs, h1.vs, e, List.append_assoc]
  · rw [h2.exp, h1.exp, e, List.append_assoc]
  · rw [h2.lk, h1.lk, e, List.append_assoc]
  · rw [h2.ts, h1.ts, e, List.append_assoc]

theorem collectFields_spec {a a' : ProfileFields} {fs : List Field} (h : collectFields a fs = .ok a') :
    Collected a a' fs := by
  induction fs generalizing a with
  | nil =>
    simp only [collectFields, Res.ok.injEq] at h
    subst h
    exact .refl a
  | cons f fs ih =>
    simp only [collectFields, Res.bind_eq_ok] at h
    obtain ⟨b, h1, h2⟩ := h
    exact (collectField_spec h1).trans (ih h2)

theorem collectField_ne_panic (a : ProfileFields) (f : Field) : collectField a f ≠ .panic := by
  cases f <;> simp only [collectField] <;> split <;> simp

theorem collectFields_ne_panic (a : ProfileFields) (fs : List Field) : collectFields a fs ≠ .panic := by
  induction fs generalizing a with
  | nil => simp [collectFields]
  | cons f fs ih =>
    simp only [collectFields, Ne, Res.bind_eq_panic]
    rintro (h | ⟨b, _, h⟩)
    · exact collectField_ne_panic a f h
    · exact ih b h

theorem Point.verify_ne_panic (c : Curve) (P : Point) : Point.verify c P ≠ .panic := by
  unfold Point.verify
  split <;> simp

theorem edValidate_ne_panic (E : Env) (pk : Point) (s : EdSignature) (m : Bytes) : edValidate E pk s m ≠ .panic := by
  unfold edValidate
  simp only [Ne, Res.bind_eq_panic, not_or, not_exists, not_and]
  refine ⟨Point.decode_ne_panic _ _, fun R _ => ⟨Point.verify_ne_panic _ _, fun _ _ => ?_⟩⟩
  split
  · simp
  · exact compareBytes_ne_panic _ _

theorem DSAPublicKey.validate_ne_panic (E : Env) (k : DSAPublicKey) (s : DSASignature) (d : Bytes) :
    k.validate E s d ≠ .panic := by
  unfold DSAPublicKey.validate
  split <;> simp

theorem payload_validate_ne_panic (E : Env) (p : ClientProfilePayload) : p.validate E ≠ .panic := by
  unfold ClientProfilePayload.validate
  simp only [Ne, Res.bind_eq_panic, not_or, not_exists, not_and]
  refine ⟨collectFields_ne_panic _ _, fun a _ => ?_⟩
  split
  · split
    · simp
    · split
      · simp
      · split
        · simp
        · rename_i hne
          simp only [Res.bind_eq_panic, not_or, not_exists, not_and]
          refine ⟨edValidate_ne_panic _ _ _ _, fun _ _ => ⟨?_, fun _ _ => by simp⟩⟩
          unfold verifyTransitional
          split
          · exact DSAPublicKey.validate_ne_panic _ _ _ _
          · rename_i h1 h2
            simp [h1, h2] at hne
          · simp
  · simp

/-- Everything an accepted payload satisfies. -/
theorem payload_validate_spec {E : Env} {p : ClientProfilePayload} {prof : ClientProfile}
    (h : p.validate E = .ok prof) :
    p.fields.filter (kind · = 1) = [.ownerTag prof.ownerTag] ∧
    p.fields.filter (kind · = 2) = [.identityKey prof.identityKey] ∧
    p.fields.filter (kind · = 3) = [.forgingKey prof.forgingKey] ∧
    prof.versions ≠ [] ∧
    p.fields.filter (fun f => kind f = 4 ∧ f ≠ .versions []) = [.versions prof.versions] ∧
    p.fields.filter (kind · = 5) = [.expiration prof.expiration] ∧
    p.fields.filter (kind · = 6) = prof.legacyKey.toList.map .legacyKey ∧
    edValidate E prof.identityKey p.signature (wFields p.fields) = .ok () ∧
    (prof.legacyKey = .none → p.fields.filter (kind · = 7) = []) ∧
    (∀ k, prof.legacyKey = some k → ∃ ts, p.fields.filter (kind · = 7) = [.transitionalSignature ts] ∧
      k.validate E ts (wFields (p.fields.filter (kind · ≠ 7))) = .ok ()) ∧
    (Version.v3 ∈ prof.versions → prof.legacyKey.isSome) := by
  unfold ClientProfilePayload.validate at h
  rw [Res.bind_eq_ok] at h
  obtain ⟨a, h1, h2⟩ := h
  have c := collectFields_spec h1
  have ct := c.tag
  have ci := c.ik
  have cf := c.fk
  have cv := c.vs
  have ce := c.exp
  have cl := c.lk
  have cs := c.ts
  simp only [versionFields, Option.toList, List.map_nil, List.nil_append, if_true] at ct ci cf cv ce cl cs
  have e7 : p.fields.filter Field.signedByLegacy = p.fields.filter (kind · ≠ 7) := by
    congr 1
    funext f
    cases f <;> rfl
  split at h2
  · rename_i tag ik fk exp q1 q2 q3 q4
    split at h2
    · cases h2
    · rename_i hv
      split at h2
      · cases h2
      · rename_i hv3
        split at h2
        · cases h2
        · rename_i hlt
          rw [Res.bind_eq_ok] at h2
          obtain ⟨_, h3, h4⟩ := h2
          rw [Res.bind_eq_ok] at h4
          obtain ⟨_, h5, h6⟩ := h4
          unfold verifyTransitional at h5
          simp only [Res.pure_def, Res.ok.injEq] at h6
          subst h6
          simp only [q1, q2, q3, q4, List.map_cons, List.map_nil] at ct ci cf ce
          rw [if_neg hv] at cv
          refine ⟨ct.symm, ci.symm, cf.symm, hv, cv.symm, ce.symm, cl.symm, h3, ?_, ?_, ?_⟩
          · intro hl
            have hl : a.legacyKey = .none := hl
            rw [← cs]
            cases ht : a.transitional with
            | none => rfl
            | some t => simp [hl, ht] at hlt
          · intro k hk
            have hk : a.legacyKey = some k := hk
            cases ht : a.transitional with
            | none => simp [hk, ht] at hlt
            | some t =>
              refine ⟨t, by rw [← cs, ht]; rfl, ?_⟩
              rw [hk, ht] at h5
              rw [← e7]
              exact h5
          · intro h3'
            show a.legacyKey.isSome
            cases hl : a.legacyKey with
            | some k => rfl
            | none =>
              cases ht : a.transitional with
              | none => exact absurd ⟨h3', by rw [ht]; rfl⟩ hv3
              | some t => simp [hl, ht] at hlt
  · cases h2

/-! ## Totality of readers -/

theorem readFlags_safe : readFlags.Safe := readU8_safe.bind fun _ => .ite (.pure _) (.fail _)
theorem readKeyid_safe : readKeyid.Safe := readU32_safe.bind fun _ => .ite (.fail _) (.pure _)

theorem readEdPublicKey_safe (c : Curve) (t : UInt16) : (readEdPublicKey c t).Safe :=
  readU16LE_safe.bind fun _ => .ite (.fail _) (readPoint_safe c)

theorem readField_safe (E : Env) : (readField E).Safe := by
  have hk := C02_key_readers_total E
  refine readU16_safe.bind fun _ => ?_
  refine .ite (readInstanceTag_safe.bind fun _ => .pure _) ?_
  refine .ite ((readEdPublicKey_safe _ _).bind fun _ => .pure _) ?_
  refine .ite ((readEdPublicKey_safe _ _).bind fun _ => .pure _) ?_
  refine .ite (readData_safe.bind fun _ => .pure _) ?_
  refine .ite (readI64_safe.bind fun _ => .pure _) ?_
  refine .ite (Dec.Safe.bind hk.1 fun _ => .pure _) ?_
  exact .ite (Dec.Safe.bind hk.2.1 fun _ => .pure _) (.fail _)

theorem readFields_safe (E : Env) (n : Nat) : (readFields E n).Safe := by
  induction n with
  | zero => exact .pure _
  | succ n ih => exact (readField_safe E).bind fun _ => ih.bind fun _ => .pure _

theorem readPayload_safe (E : Env) : (readPayload E).Safe :=
  readU32_safe.bind fun _ => (readFields_safe E _).bind fun _ =>
    Dec.Safe.bind (C02_key_readers_total E).2.2.1 fun _ =>
      (Dec.Safe.lift (payload_validate_ne_panic E _)).bind fun _ => .pure _

theorem readDHCommit_safe : readDHCommit.Safe := readData_safe.bind fun _ => readData_safe.bind fun _ => .pure _
theorem readDHKey_safe : readDHKey.Safe := readMpi_safe.bind fun _ => .pure _
theorem readRevealSignature_safe : readRevealSignature.Safe :=
  readData_safe.bind fun _ => .ite (.fail _) (readData_safe.bind fun _ => readMac_safe.bind fun _ => .pure _)
theorem readSignature_safe : readSignature.Safe := readData_safe.bind fun _ => readMac_safe.bind fun _ => .pure _
theorem readDataMessage_safe : readDataMessage.Safe :=
  readFlags_safe.bind fun _ => readKeyid_safe.bind fun _ => readKeyid_safe.bind fun _ =>
    readMpi_safe.bind fun _ => readCtr_safe.bind fun _ => readData_safe.bind fun _ =>
      readMac_safe.bind fun _ => readData_safe.bind fun _ => .pure _
theorem readIdentity_safe (E : Env) : (readIdentity E).Safe :=
  (readPayload_safe E).bind fun _ => (readPoint_safe _).bind fun _ => readMpi_safe.bind fun _ =>
    (readPoint_safe _).bind fun _ => readMpi_safe.bind fun _ => .pure _
theorem readDataMessage4_safe (E : Env) : (readDataMessage4 E).Safe :=
  readFlags_safe.bind fun _ => readU32_safe.bind fun _ => readU32_safe.bind fun _ => readU32_safe.bind fun _ =>
    (readPoint_safe _).bind fun _ => readMpi_safe.bind fun _ => readData_safe.bind fun _ =>
      readMac4_safe.bind fun _ => readData_safe.bind fun _ => .pure _
theorem readVersion_safe : readVersion.Safe :=
  readU16_safe.bind fun _ => .ite (.fail _) (.ite (.pure _) (.ite (.pure _) (.fail _)))

end Otrr
