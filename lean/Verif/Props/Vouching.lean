import Verif.Spec.Vouching
import Verif.Props.Profile
import Verif.Props.Agreement3
/-! C118: what the signature of an OTRv3 key in a client profile stands for. -/

namespace Otrr.Props
open Otrr Otrr.Spec Otrr.AKE ToyAke

/-- C118, as far as it holds: an accepted payload that names an OTRv3 key carries a signature that verifies under that key, for the text of the payload.  If it is a
signature for `data`, i.e. the same number was signed, then the text and `data` are the same numbers modulo the order of the group of the key.  Missing: that
they are the same. -/
theorem C118_partial (E : Env) (s rest : Bytes) (p : ClientProfilePayload) (h : readPayload E s = .ok (p, rest)) :
    ∃ prof, p.validate E = .ok prof ∧ ∀ k, prof.legacyKey = some k → ∃ ts, CarriesSignature p k ts ∧
      E.dsaVerify k (dsaPrehash (vouchedText p) k.q) ts = true ∧
      (0 < k.q → k.q < 2 ^ 160 → ∀ data, dsaPrehash data k.q = dsaPrehash (vouchedText p) k.q → beNat data % k.q = beNat (vouchedText p) % k.q) := by
  obtain ⟨prof, hv, -, -, -, -, -, -, h6, -, -, h7, -⟩ := C57_partial E s rest p h
  refine ⟨prof, hv, fun k hk => ?_⟩
  obtain ⟨ts, hts, hval⟩ := h7 k hk
  have e : p.fields.filter (kind · ≠ 7) = p.fields.filter fun f => match f with | .transitionalSignature _ => false | _ => true := by
    apply List.filter_congr
    intro f _
    cases f <;> simp [kind]
  refine ⟨ts, ⟨?_, ?_⟩, ?_, ?_⟩
  · have : Field.legacyKey k ∈ p.fields.filter (kind · = 6) := by rw [h6, hk]; simp
    exact (List.mem_filter.mp this).1
  · have : Field.transitionalSignature ts ∈ p.fields.filter (kind · = 7) := by rw [hts]; simp
    exact (List.mem_filter.mp this).1
  · rw [e] at hval
    exact dsaValidate_ok.mp hval
  · intro hq hq' data hd
    unfold dsaPrehash at hd
    have hb : (256 : Nat) ^ 20 = 2 ^ 160 := by decide
    have h1 := congrArg beNat hd
    rwa [beNat_beBytes_of_lt, beNat_beBytes_of_lt] at h1
    · have := Nat.mod_lt (beNat (vouchedText p)) hq; omega
    · have := Nat.mod_lt (beNat data) hq; omega

/-- The payload that the owner of the identity key `identity` makes of a profile with a signature `ts` of somebody else. -/
def withSignature (E : Env) (prof : ClientProfile) (identity : EdDSAKeyPair) (ts : DSASignature) : ClientProfilePayload :=
  ⟨prof.baseFields ++ [.transitionalSignature ts], identity.sign E (wFields (prof.baseFields ++ [.transitionalSignature ts]))⟩

/-- C118 is false of the code, for all primitives: whatever `data` the owner of the OTRv3 key `pk` signed, for whatever purpose, anybody who can make a profile
with `pk` in it, with their own identity key, such that its text is the same number as `data` modulo the order of the group, can use the signature in that
profile.  It is accepted, as decoded from its bytes. -/
theorem C118_transplant (E : Env) (hc : GoodCurve E.curve) (prof : ClientProfile) (rk : Bytes) (pk : DSAPublicKey) (ts : DSASignature) (data : Bytes)
    (hsig : E.dsaVerify pk (dsaPrehash data pk.q) ts = true) (hcong : beNat (wFields prof.baseFields) % pk.q = beNat data % pk.q)
    (hik : prof.identityKey = (EdDSAKeyPair.generate E rk).pub) (hlk : prof.legacyKey = some pk) (htag : ValidTag prof.ownerTag)
    (hfk : OnCurve E.curve prof.forgingKey) (hvs : prof.versions ≠ []) (hvl : ∀ v ∈ prof.versions, v = .v3 ∨ v = .v4) (hvn : prof.versions.length < 2 ^ 32)
    (hpk : WfDsaKey E pk) (hts : WfDsaSig ts)
    (h1 : (withSignature E prof (EdDSAKeyPair.generate E rk) ts).signature.r ≠ Point.identity.encode)
    (h2 : NonZero (withSignature E prof (EdDSAKeyPair.generate E rk) ts).signature.s) :
    (withSignature E prof (EdDSAKeyPair.generate E rk) ts).validate E = .ok prof ∧
    ∀ rest, readPayload E (wPayload (withSignature E prof (EdDSAKeyPair.generate E rk) ts) ++ rest) =
      .ok (withSignature E prof (EdDSAKeyPair.generate E rk) ts, rest) := by
  have hed : edValidate E (EdDSAKeyPair.generate E rk).pub ((EdDSAKeyPair.generate E rk).sign E (wFields (prof.baseFields ++ [.transitionalSignature ts])))
      (wFields (prof.baseFields ++ [.transitionalSignature ts])) = .ok () := by
    unfold withSignature at h1 h2
    simp only at h1 h2
    exact C63_eddsa E hc rk _ h1 h2
  have hl : (withSignature E prof (EdDSAKeyPair.generate E rk) ts).signature.r.length = 57 ∧
      (withSignature E prof (EdDSAKeyPair.generate E rk) ts).signature.s.length = 57 :=
    ⟨Point.encode_length _, by simp [withSignature, EdDSAKeyPair.sign]⟩
  have hv : (withSignature E prof (EdDSAKeyPair.generate E rk) ts).validate E = .ok prof := by
    unfold withSignature at hl ⊢
    generalize (EdDSAKeyPair.generate E rk).sign E (wFields (prof.baseFields ++ [.transitionalSignature ts])) = sig at hed ⊢
    rw [← hik] at hed
    have ef : (prof.baseFields ++ [Field.transitionalSignature ts]).filter Field.signedByLegacy = prof.baseFields := by
      rw [List.filter_append]
      simp [ClientProfile.baseFields, hlk, Field.signedByLegacy]
    have hd : pk.validate E ts (wFields prof.baseFields) = .ok () := by
      rw [dsaValidate_ok, dsaPrehash, hcong]
      exact hsig
    unfold ClientProfilePayload.validate
    simp only
    rw [collect_base]
    simp only [collectFields, collectField, Option.isSome_none, Bool.false_eq_true, if_false, Res.bind_ok]
    rw [if_neg hvs, if_neg (by simp), if_neg (by simp [hlk]), hed, hlk]
    simp only [verifyTransitional, ef, hd, Res.bind_ok, Res.pure_def]
    obtain ⟨a, b, c, d, e, f⟩ := prof
    simp_all
  refine ⟨hv, fun rest => readPayload_w hc.field ⟨?_, ?_, hl, prof, hv⟩ rest⟩
  · intro f hf
    simp only [withSignature, ClientProfile.baseFields, hlk, List.mem_append, List.mem_cons, List.not_mem_nil, or_false] at hf
    rcases hf with ((rfl | rfl | rfl | rfl | rfl) | rfl) | rfl
    · exact htag
    · show OnCurve E.curve prof.identityKey
      rw [hik]
      exact (mulG_good hc _).1
    · exact hfk
    · exact ⟨hvl, hvn⟩
    · exact trivial
    · exact hpk
    · exact hts
  · simp [withSignature, ClientProfile.baseFields, hlk]

/-! ## A stranger's profile with the key of Bob, who only took part in an OTRv3 exchange -/

/-- The 159 versions listed by the stranger, chosen so that the text of the profile is the number that Bob signed. -/
def strangeVersions : List Version :=
  (List.range 159).map fun i => if Nat.testBit 526394533336100233389161518168076016342462829730 (158 - i) then .v4 else .v3

/-- The stranger's profile: their own identity key, and Bob's OTRv3 key. -/
def strangeProfile : ClientProfile :=
  ⟨0x100, (EdDSAKeyPair.generate toyEnv [9]).pub, toyCurve.G, strangeVersions, 1000, some bob.pk⟩

/-- The signature that Bob sent in the exchange. -/
def bobsSignature : DSASignature :=
  toyEnv.dsaSign bob (digest3 toyEnv bob.pk.q (akeKey toyEnv 2 (secret3 toyEnv (DH.Keypair.generate toyEnv.dh ((smallRand 1).bytes [0] 192)) key.gy))
    (transcript3 (DH.Keypair.generate toyEnv.dh ((smallRand 1).bytes [0] 192)).pub key.gy bob.pk 1))

theorem bobs_sent : SentIn3 toyEnv bob bobsSignature := by
  have r1' := r1
  have r3' := r3
  rw [toy_b1] at r1' r3'
  exact ⟨2, _, key.gy, .began (.began .start r1') r3', rfl⟩

/-- C118 is false of the code: the signature that Bob sent in an OTRv3 exchange is accepted in a client profile of a stranger, with the stranger's identity key,
though Bob never signed a profile.  The profile is valid at time 500.  The toy primitives stand for any primitives. -/
theorem C118_violated : ∃ (p : ClientProfilePayload) (prof : ClientProfile) (ts : DSASignature),
    SentIn3 toyEnv bob ts ∧ CarriesSignature p bob.pk ts ∧ prof.identityKey = (EdDSAKeyPair.generate toyEnv [9]).pub ∧
    readPayload toyEnv (wPayload p) = .ok (p, []) ∧ p.validate toyEnv = .ok prof ∧ prof.validate toyEnv 500 = .ok () := by
  have h := C118_transplant toyEnv toy_goodCurve strangeProfile [9] bob.pk bobsSignature
    (toyEnv.hmacSha256 (akeKey toyEnv 2 (secret3 toyEnv (DH.Keypair.generate toyEnv.dh ((smallRand 1).bytes [0] 192)) key.gy))
      (transcript3 (DH.Keypair.generate toyEnv.dh ((smallRand 1).bytes [0] 192)).pub key.gy bob.pk 1))
    (good_bob.correct _) (by decide +kernel) (by simp only [strangeProfile]) (by simp only [strangeProfile]) (Or.inr (by decide)) toy_goodCurve.base (by decide) (by decide +kernel) (by decide +kernel)
    good_bob.key (good_bob.sig _) (by decide +kernel) (anyNonzero_iff.mp (by decide +kernel))
  refine ⟨_, _, bobsSignature, bobs_sent, ⟨?_, ?_⟩, by simp only [strangeProfile], ?_, h.1, by decide +kernel⟩
  · simp [withSignature, ClientProfile.baseFields, strangeProfile]
  · simp [withSignature]
  · simpa using h.2 []

end Otrr.Props
