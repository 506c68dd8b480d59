import Verif.Model.Ed448
import Verif.Model.Fragment
/-! # Model of src/clientprofile.rs -/

namespace Otrr

/-- `ClientProfile`, src/clientprofile.rs 11-18.  The signed expiration time is kept as its two's complement
bits. -/
structure ClientProfile where
  ownerTag : UInt32
  identityKey : Point
  forgingKey : Point
  versions : List Version
  expiration : UInt64
  legacyKey : Option DSAPublicKey
  deriving DecidableEq, Repr

/-- `Field`, src/clientprofile.rs 270-279. -/
inductive Field
  | ownerTag (t : UInt32)
  | identityKey (k : Point)
  | forgingKey (k : Point)
  | versions (vs : List Version)
  | expiration (e : UInt64)
  | legacyKey (k : DSAPublicKey)
  | transitionalSignature (s : DSASignature)
  deriving DecidableEq, Repr

/-- `ClientProfilePayload`, src/clientprofile.rs 103-107. -/
structure ClientProfilePayload where
  fields : List Field
  signature : EdSignature
  deriving DecidableEq, Repr

/-- The versions a profile may list. -/
def Version.legal : Version → Bool
  | .v3 => true
  | .v4 => true
  | _ => false

/-- `verify_versions`, src/clientprofile.rs 403-413. -/
def verifyVersions (vs : List Version) : Res Unit :=
  if vs.all Version.legal then .ok () else .err .protocolViolation

/-- `parse_versions`, src/clientprofile.rs 415-425. -/
def parseVersions (data : Bytes) : List Version :=
  data.filterMap fun c => if c = 0x33 then some .v3 else if c = 0x34 then some .v4 else .none

/-- `encode_versions`, src/clientprofile.rs 427-437.  The panic on an illegal version is modelled where
profiles are signed (`ClientProfile.sign`); payloads that were decoded contain legal versions only. -/
def encodeVersions (vs : List Version) : Bytes :=
  vs.filterMap fun v => match v with
    | .v3 => some 0x33
    | .v4 => some 0x34
    | _ => .none

/-- `Field::encode`, `IdentityKey::encode`, `ForgingKey::encode`, src/clientprofile.rs 281-314, 339-345,
350-355, 379-384. -/
def wField : Field → Bytes
  | .ownerTag t => wU16 1 ++ wU32 t
  | .identityKey k => wU16 2 ++ (wU16LE 0x10 ++ wPoint k)
  | .forgingKey k => wU16 3 ++ (wU16LE 0x12 ++ wPoint k)
  | .versions vs => wU16 4 ++ wData (encodeVersions vs)
  | .expiration e => wU16 5 ++ wI64 e
  | .legacyKey k => wU16 6 ++ wPublicKey k
  | .transitionalSignature s => wU16 7 ++ wDsaSignature s

/-- `IdentityKey::decode` and `ForgingKey::decode`, src/clientprofile.rs 364-371, 393-400. -/
def readEdPublicKey (c : Curve) (typ : UInt16) : Dec Point := do
  let t ← readU16LE
  if t ≠ typ then Dec.fail .protocolViolation else readPoint c

/-- `Field::decode`, src/clientprofile.rs 317-336. -/
def readField (E : Env) : Dec Field := do
  let typ ← readU16
  if typ = 1 then do return .ownerTag (← readInstanceTag)
  else if typ = 2 then do return .identityKey (← readEdPublicKey E.curve 0x10)
  else if typ = 3 then do return .forgingKey (← readEdPublicKey E.curve 0x12)
  else if typ = 4 then do return .versions (parseVersions (← readData))
  else if typ = 5 then do return .expiration (← readI64)
  else if typ = 6 then do return .legacyKey (← readPublicKey E)
  else if typ = 7 then do return .transitionalSignature (← readDsaSignature)
  else Dec.fail .protocolViolation

/-- The encoding of a list of fields, e.g. src/clientprofile.rs 226-229. -/
def wFields (fs : List Field) : Bytes := (fs.map wField).flatten

/-- `ClientProfilePayload::encode`, src/clientprofile.rs 109-117.  The number of fields fits 32 bits. -/
def wPayload (p : ClientProfilePayload) : Bytes :=
  wU32 (UInt32.ofNat p.fields.length) ++ wFields p.fields ++ wEdSignature p.signature

/-- The variables collected by `ClientProfilePayload::validate`, src/clientprofile.rs 153-159. -/
structure ProfileFields where
  ownerTag : Option UInt32 := .none
  identityKey : Option Point := .none
  forgingKey : Option Point := .none
  versions : List Version := []
  expiration : Option UInt64 := .none
  legacyKey : Option DSAPublicKey := .none
  transitional : Option DSASignature := .none
  deriving DecidableEq, Repr

/-- One round of the loop at src/clientprofile.rs 160-205. -/
def collectField (a : ProfileFields) : Field → Res ProfileFields
  | .ownerTag t =>
    if a.ownerTag.isSome then .err .protocolViolation else .ok { a with ownerTag := some t }
  | .identityKey k =>
    if a.identityKey.isSome then .err .protocolViolation else .ok { a with identityKey := some k }
  | .forgingKey k =>
    if a.forgingKey.isSome then .err .protocolViolation else .ok { a with forgingKey := some k }
  | .versions vs =>
    if a.versions ≠ [] then .err .protocolViolation else .ok { a with versions := vs }
  | .expiration e =>
    if a.expiration.isSome then .err .protocolViolation else .ok { a with expiration := some e }
  | .legacyKey k =>
    if a.legacyKey.isSome then .err .protocolViolation else .ok { a with legacyKey := some k }
  | .transitionalSignature s =>
    if a.transitional.isSome then .err .protocolViolation else .ok { a with transitional := some s }

/-- The loop at src/clientprofile.rs 160-205. -/
def collectFields : ProfileFields → List Field → Res ProfileFields
  | a, [] => .ok a
  | a, f :: fs => do
    let a ← collectField a f
    collectFields a fs

/-- The fields covered by the transitional signature, src/clientprofile.rs 239-252. -/
def Field.signedByLegacy : Field → Bool
  | .transitionalSignature _ => false
  | _ => true

/-- The check of the transitional signature, src/clientprofile.rs 236-256. -/
def verifyTransitional (E : Env) (legacy : Option DSAPublicKey) (sig : Option DSASignature)
    (fields : List Field) : Res Unit :=
  match legacy, sig with
  | some lk, some ts => lk.validate E ts (wFields (fields.filter Field.signedByLegacy))
  | some _, .none => .panic
  | .none, _ => .ok ()

/-- `ClientProfilePayload::validate`, src/clientprofile.rs 151-267. -/
def ClientProfilePayload.validate (E : Env) (p : ClientProfilePayload) : Res ClientProfile := do
  let a ← collectFields {} p.fields
  match a.ownerTag, a.identityKey, a.forgingKey, a.expiration with
  | some tag, some ik, some fk, some exp =>
    if a.versions = [] then .err .protocolViolation
    else if Version.v3 ∈ a.versions ∧ a.transitional.isNone then .err .protocolViolation
    else if a.legacyKey.isSome ≠ a.transitional.isSome then .err .protocolViolation
    else do
      edValidate E ik p.signature (wFields p.fields)
      verifyTransitional E a.legacyKey a.transitional p.fields
      return ⟨tag, ik, fk, a.versions, exp, a.legacyKey⟩
  | _, _, _, _ => .err .protocolViolation

/-- The loop of `ClientProfilePayload::decode`, src/clientprofile.rs 129-131. -/
def readFields (E : Env) : Nat → Dec (List Field)
  | 0 => pure []
  | n + 1 => do
    let f ← readField E
    let fs ← readFields E n
    pure (f :: fs)

/-- `ClientProfilePayload::decode`, src/clientprofile.rs 125-138.  The allocation of `n` elements in
advance (128) is not modelled. -/
def readPayload (E : Env) : Dec ClientProfilePayload := do
  let n ← readU32
  let fields ← readFields E n.toNat
  let signature ← readEdSignature
  let _ ← Dec.lift (ClientProfilePayload.validate E ⟨fields, signature⟩)
  pure ⟨fields, signature⟩

/-- The time test of `ClientProfile::validate`, src/clientprofile.rs 51-52: `expiration` as a signed number
is negative or not after `now`. -/
def expired (expiration : UInt64) (now : Nat) : Bool :=
  expiration.toNat ≥ 2 ^ 63 || expiration.toNat ≤ now

/-- `ClientProfile::validate`, src/clientprofile.rs 46-58, at time `now`. -/
def ClientProfile.validate (E : Env) (now : Nat) (p : ClientProfile) : Res Unit := do
  let _ ← verifyTag p.ownerTag
  Point.verify E.curve p.identityKey
  Point.verify E.curve p.forgingKey
  verifyVersions p.versions
  if expired p.expiration now then .err .protocolViolation else .ok ()

/-- `ClientProfile::new`, src/clientprofile.rs 26-44. -/
def ClientProfile.new (E : Env) (now : Nat) (tag : UInt32) (ik fk : Point) (vs : List Version)
    (exp : UInt64) (lk : Option DSAPublicKey) : Res ClientProfile := do
  ClientProfile.validate E now ⟨tag, ik, fk, vs, exp, lk⟩
  return ⟨tag, ik, fk, vs, exp, lk⟩

/-- The fields before the transitional signature, src/clientprofile.rs 74-83. -/
def ClientProfile.baseFields (p : ClientProfile) : List Field :=
  [.ownerTag p.ownerTag, .identityKey p.identityKey, .forgingKey p.forgingKey, .versions p.versions,
    .expiration p.expiration] ++
  match p.legacyKey with
  | some k => [.legacyKey k]
  | .none => []

/-- The fields in `ClientProfile::sign`, src/clientprofile.rs 74-90. -/
def ClientProfile.signedFields (E : Env) (p : ClientProfile) (legacy : Option DSAKeypair) : List Field :=
  p.baseFields ++
  match p.legacyKey, legacy with
  | some _, some kp => [.transitionalSignature (kp.sign E (wFields p.baseFields))]
  | _, _ => []

/-- `ClientProfile::sign`, src/clientprofile.rs 66-100, with its assertions, including the
`debug_assert!` at 98 and the panic of `encode_versions` on illegal versions. -/
def ClientProfile.sign (E : Env) (p : ClientProfile) (identity : EdDSAKeyPair)
    (legacy : Option DSAKeypair) : Res ClientProfilePayload := do
  Res.assert (p.identityKey = identity.pub)
  Res.assert (p.legacyKey.isNone = legacy.isNone)
  Res.assert (p.versions.all Version.legal)
  let fields := p.signedFields E legacy
  let payload : ClientProfilePayload := ⟨fields, identity.sign E (wFields fields)⟩
  Res.assert (ClientProfilePayload.validate E payload).isOk
  return payload

end Otrr
