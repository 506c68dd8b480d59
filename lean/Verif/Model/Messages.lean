import Verif.Model.ClientProfile
/-!
# Model of src/messages.rs, and of the message codecs of src/ake.rs and src/dake.rs

Fixed-size arrays are byte strings; that they have the right length is part of the well-formedness
condition of the theorems and is preserved by the readers.
-/

namespace Otrr

/-! ## Base64 (crate `base64` 0.13, standard alphabet) -/

/-- The symbol with value `v`. -/
def b64Char (v : Nat) : UInt8 :=
  if v < 26 then UInt8.ofNat (0x41 + v)
  else if v < 52 then UInt8.ofNat (0x61 + (v - 26))
  else if v < 62 then UInt8.ofNat (0x30 + (v - 52))
  else if v = 62 then 0x2b
  else 0x2f

/-- The value of a symbol. -/
def b64Val (c : UInt8) : Option Nat :=
  if 0x41 ≤ c && c ≤ 0x5a then some (c.toNat - 0x41)
  else if 0x61 ≤ c && c ≤ 0x7a then some (c.toNat - 0x61 + 26)
  else if 0x30 ≤ c && c ≤ 0x39 then some (c.toNat - 0x30 + 52)
  else if c = 0x2b then some 62
  else if c = 0x2f then some 63
  else .none

/-- `base64::encode`, used at src/messages.rs 507: with padding. -/
def b64Encode : Bytes → Bytes
  | a :: b :: c :: r =>
    b64Char (a.toNat / 4) :: b64Char (a.toNat % 4 * 16 + b.toNat / 16) ::
      b64Char (b.toNat % 16 * 4 + c.toNat / 64) :: b64Char (c.toNat % 64) :: b64Encode r
  | [a, b] =>
    [b64Char (a.toNat / 4), b64Char (a.toNat % 4 * 16 + b.toNat / 16), b64Char (b.toNat % 16 * 4), 0x3d]
  | [a] => [b64Char (a.toNat / 4), b64Char (a.toNat % 4 * 16), 0x3d, 0x3d]
  | [] => []

/-- Decode symbol values; trailing bits must be zero. -/
def b64Groups : List Nat → Option Bytes
  | a :: b :: c :: d :: r =>
    (b64Groups r).map fun t =>
      UInt8.ofNat (a * 4 + b / 16) :: UInt8.ofNat (b % 16 * 16 + c / 4) :: UInt8.ofNat (c % 4 * 64 + d) :: t
  | [a, b, c] =>
    if c % 4 = 0 then some [UInt8.ofNat (a * 4 + b / 16), UInt8.ofNat (b % 16 * 16 + c / 4)] else .none
  | [a, b] => if b % 16 = 0 then some [UInt8.ofNat (a * 4 + b / 16)] else .none
  | [_] => .none
  | [] => some []

/-- All symbols of a list, if they all are symbols. -/
def b64Vals : Bytes → Option (List Nat)
  | [] => some []
  | c :: r => match b64Val c, b64Vals r with
    | some v, some vs => some (v :: vs)
    | _, _ => .none

/-- `base64::decode`, used at src/messages.rs 62: symbols followed by optional padding, at most as much
as completes the last group. -/
def b64Decode (s : Bytes) : Option Bytes :=
  let sym := s.takeWhile (· != 0x3d)
  let pad := s.dropWhile (· != 0x3d)
  if pad.all (· == 0x3d) && (pad.length == 0 || (sym.length % 4 == 2 && pad.length ≤ 2) ||
      (sym.length % 4 == 3 && pad.length ≤ 1)) then
    (b64Vals sym).bind b64Groups
  else .none

/-! ## Message structures -/

/-- `DHCommitMessage`, src/ake.rs 510-513. -/
structure DHCommitMessage where
  gxEncrypted : Bytes
  gxHashed : Bytes
  deriving DecidableEq, Repr, Inhabited

/-- `DHKeyMessage`, src/ake.rs 535-537. -/
structure DHKeyMessage where
  gy : Nat
  deriving DecidableEq, Repr, Inhabited

/-- `RevealSignatureMessage`, src/ake.rs 556-560. -/
structure RevealSignatureMessage where
  key : Bytes
  sigEncrypted : Bytes
  sigMac : Bytes
  deriving DecidableEq, Repr, Inhabited

/-- `SignatureMessage`, src/ake.rs 593-596. -/
structure SignatureMessage where
  sigEncrypted : Bytes
  sigMac : Bytes
  deriving DecidableEq, Repr, Inhabited

/-- `DataMessage`, src/messages.rs 288-305.  `flags` are the bits of `MessageFlags`. -/
structure DataMessage where
  flags : UInt8
  senderKeyid : UInt32
  receiverKeyid : UInt32
  dhY : Nat
  ctr : Bytes
  encrypted : Bytes
  authenticator : Bytes
  revealed : Bytes
  deriving DecidableEq, Repr, Inhabited

/-- `IdentityMessage`, src/dake.rs 529-536. -/
structure IdentityMessage where
  profile : ClientProfilePayload
  y : Point
  b : Nat
  ecdh0 : Point
  dh0 : Nat
  deriving DecidableEq, Repr

/-- `AuthRMessage`, src/dake.rs 579-587. -/
structure AuthRMessage where
  profile : ClientProfilePayload
  x : Point
  a : Nat
  sigma : RingSignature
  ecdh0 : Point
  dh0 : Nat
  deriving DecidableEq, Repr

/-- `AuthIMessage`, src/dake.rs 629-632. -/
structure AuthIMessage where
  sigma : RingSignature
  deriving DecidableEq, Repr, Inhabited

/-- `DataMessage4`, src/messages.rs 347-357. -/
structure DataMessage4 where
  flags : UInt8
  pn : UInt32
  i : UInt32
  j : UInt32
  ecdh : Point
  dh : Option Nat
  encrypted : Bytes
  authenticator : Bytes
  revealed : Bytes
  deriving DecidableEq, Repr, Inhabited

/-- `EncodedMessageType`, src/messages.rs 246-269. -/
inductive EncodedMessageType
  | unencoded (content : Bytes)
  | dhCommit (m : DHCommitMessage)
  | dhKey (m : DHKeyMessage)
  | revealSignature (m : RevealSignatureMessage)
  | signature (m : SignatureMessage)
  | data (m : DataMessage)
  | identity (m : IdentityMessage)
  | authR (m : AuthRMessage)
  | authI (m : AuthIMessage)
  | data4 (m : DataMessage4)
  deriving DecidableEq, Repr

/-- `EncodedMessage`, src/messages.rs 201-206. -/
structure EncodedMessage where
  version : Version
  sender : UInt32
  receiver : UInt32
  message : EncodedMessageType
  deriving DecidableEq, Repr

/-- `MessageType`, src/messages.rs 192-198. -/
inductive MessageType
  | error (content : Bytes)
  | plaintext (content : Bytes)
  | tagged (versions : List Version) (content : Bytes)
  | query (versions : List Version)
  | encoded (m : EncodedMessage)
  deriving DecidableEq, Repr

/-! ## Codecs -/

/-- `IGNORE_UNREADABLE`, src/encoding.rs 21. -/
def IGNORE_UNREADABLE : UInt8 := 1

/-- `MessageFlags::from_bits`, src/encoding.rs 14-23 (bitflags): fails on undefined bits. -/
def readFlags : Dec UInt8 := do
  let b ← readU8
  if b &&& IGNORE_UNREADABLE = b then pure b else Dec.fail .protocolViolation

/-- A key id: `utils::u32::nonzero(decoder.read_u32()?)`, src/messages.rs 311-314. -/
def readKeyid : Dec UInt32 := do
  let k ← readU32
  if k = 0 then Dec.fail .protocolViolation else pure k

/-- `DHCommitMessage::encode`, src/ake.rs 515-521. -/
def wDHCommit (m : DHCommitMessage) : Bytes := wData m.gxEncrypted ++ wData m.gxHashed

/-- `DHCommitMessage::decode`, src/ake.rs 524-532. -/
def readDHCommit : Dec DHCommitMessage := do
  let e ← readData
  let h ← readData
  pure ⟨e, h⟩

/-- `DHKeyMessage::encode`, src/ake.rs 539-543. -/
def wDHKey (m : DHKeyMessage) : Bytes := wMpi m.gy

/-- `DHKeyMessage::decode`, src/ake.rs 546-553. -/
def readDHKey : Dec DHKeyMessage := do
  let gy ← readMpi
  pure ⟨gy⟩

/-- `RevealSignatureMessage::encode`, src/ake.rs 569-576. -/
def wRevealSignature (m : RevealSignatureMessage) : Bytes := wData m.key ++ wData m.sigEncrypted ++ m.sigMac

/-- `RevealSignatureMessage::decode`, src/ake.rs 579-590. -/
def readRevealSignature : Dec RevealSignatureMessage := do
  let key ← readData
  if key.length ≠ 16 then Dec.fail .protocolViolation
  else do
    let e ← readData
    let mac ← readMac
    pure ⟨key, e, mac⟩

/-- `SignatureMessage::encode`, src/ake.rs 598-604. -/
def wSignature (m : SignatureMessage) : Bytes := wData m.sigEncrypted ++ m.sigMac

/-- `SignatureMessage::decode`, src/ake.rs 607-615. -/
def readSignature : Dec SignatureMessage := do
  let e ← readData
  let mac ← readMac
  pure ⟨e, mac⟩

/-- `DataMessage::encode`, src/messages.rs 333-345. -/
def wDataMessage (m : DataMessage) : Bytes :=
  wU8 m.flags ++ wU32 m.senderKeyid ++ wU32 m.receiverKeyid ++ wMpi m.dhY ++ m.ctr ++ wData m.encrypted ++
    m.authenticator ++ wData m.revealed

/-- `DataMessage::decode`, src/messages.rs 308-330. -/
def readDataMessage : Dec DataMessage := do
  let flags ← readFlags
  let sk ← readKeyid
  let rk ← readKeyid
  let dhY ← readMpi
  let ctr ← readCtr
  let enc ← readData
  let auth ← readMac
  let rev ← readData
  pure ⟨flags, sk, rk, dhY, ctr, enc, auth, rev⟩

/-- `IdentityMessage::encode`, src/dake.rs 538-547. -/
def wIdentity (m : IdentityMessage) : Bytes :=
  wPayload m.profile ++ wPoint m.y ++ wMpi m.b ++ wPoint m.ecdh0 ++ wMpi m.dh0

/-- `IdentityMessage::decode`, src/dake.rs 550-565. -/
def readIdentity (E : Env) : Dec IdentityMessage := do
  let profile ← readPayload E
  let y ← readPoint E.curve
  let b ← readMpi
  let ecdh0 ← readPoint E.curve
  let dh0 ← readMpi
  pure ⟨profile, y, b, ecdh0, dh0⟩

/-- `AuthRMessage::encode`, src/dake.rs 589-599. -/
def wAuthR (m : AuthRMessage) : Bytes :=
  wPayload m.profile ++ wPoint m.x ++ wMpi m.a ++ wRing m.sigma ++ wPoint m.ecdh0 ++ wMpi m.dh0

/-- `AuthRMessage::decode`, src/dake.rs 602-619. -/
def readAuthR (E : Env) : Dec AuthRMessage := do
  let profile ← readPayload E
  let x ← readPoint E.curve
  let a ← readMpi
  let sigma ← readRing E.curve
  let ecdh0 ← readPoint E.curve
  let dh0 ← readMpi
  pure ⟨profile, x, a, sigma, ecdh0, dh0⟩

/-- `AuthIMessage::encode`, src/dake.rs 634-638. -/
def wAuthI (m : AuthIMessage) : Bytes := wRing m.sigma

/-- `AuthIMessage::decode`, src/dake.rs 641-646. -/
def readAuthI (E : Env) : Dec AuthIMessage := do
  let sigma ← readRing E.curve
  pure ⟨sigma⟩

/-- `DataMessage4::encode`, src/messages.rs 389-403; the assertion is in `encodeEncoded`. -/
def wDataMessage4 (m : DataMessage4) : Bytes :=
  wU8 m.flags ++ wU32 m.pn ++ wU32 m.i ++ wU32 m.j ++ wPoint m.ecdh ++ wMpi (m.dh.getD 0) ++
    wData m.encrypted ++ m.authenticator ++ wData m.revealed

/-- `DataMessage4::decode`, src/messages.rs 360-386. -/
def readDataMessage4 (E : Env) : Dec DataMessage4 := do
  let flags ← readFlags
  let pn ← readU32
  let i ← readU32
  let j ← readU32
  let ecdh ← readPoint E.curve
  let dh ← readMpi
  let enc ← readData
  let auth ← readMac4
  let rev ← readData
  pure ⟨flags, pn, i, j, ecdh, if dh = 0 then .none else some dh, enc, auth, rev⟩

/-- `DataMessage4::validate`, src/messages.rs 406-434, with its `debug_assert!`s. -/
def DataMessage4.validate (E : Env) (m : DataMessage4) : Res Unit := do
  if (m.i % 3 == 0) ≠ m.dh.isSome then .err .protocolViolation
  else
    match m.dh with
    | some v => DH.verify3 E.dh3 v
    | .none => .ok ()
    Point.verify E.curve m.ecdh
    if m.revealed.length % 64 ≠ 0 then .err .protocolViolation
    else if m.i > 0 ∧ m.j = 0 ∧ m.revealed.length / 64 = 0 then .err .protocolViolation
    else Res.assert (anyNonzero m.authenticator)

/-- `encode_version`, src/messages.rs 557-564. -/
def encodeVersion : Version → Res UInt16
  | .none => .ok 0
  | .v3 => .ok 3
  | .v4 => .ok 4
  | .unsupported _ => .panic

/-- The type code written for a message, src/messages.rs 212-224 and 25-34; panics on `Unencoded`. -/
def typeCode : EncodedMessageType → Res UInt8
  | .unencoded _ => .panic
  | .dhCommit _ => .ok 0x02
  | .dhKey _ => .ok 0x0a
  | .revealSignature _ => .ok 0x11
  | .signature _ => .ok 0x12
  | .identity _ => .ok 0x35
  | .authR _ => .ok 0x36
  | .authI _ => .ok 0x37
  | .data _ => .ok 0x03
  | .data4 _ => .ok 0x03

/-- The body of a message, src/messages.rs 227-240, with the assertion at 391. -/
def wBody : EncodedMessageType → Res Bytes
  | .unencoded _ => .panic
  | .dhCommit m => .ok (wDHCommit m)
  | .dhKey m => .ok (wDHKey m)
  | .revealSignature m => .ok (wRevealSignature m)
  | .signature m => .ok (wSignature m)
  | .identity m => .ok (wIdentity m)
  | .authR m => .ok (wAuthR m)
  | .authI m => .ok (wAuthI m)
  | .data m => .ok (wDataMessage m)
  | .data4 m => if m.revealed.length % 64 = 0 then .ok (wDataMessage4 m) else .panic

/-- `EncodedMessage::encode`, src/messages.rs 208-242. -/
def encodeEncoded (m : EncodedMessage) : Res Bytes := do
  let v ← encodeVersion m.version
  let t ← typeCode m.message
  let body ← wBody m.message
  return wU16 v ++ wU8 t ++ wU32 m.sender ++ wU32 m.receiver ++ body

/-- `encode_authenticator_data`, src/messages.rs 516-534. -/
def authenticatorData (v : UInt16) (sender receiver : UInt32) (m : DataMessage) : Bytes :=
  wU16 v ++ wU8 0x03 ++ wU32 sender ++ wU32 receiver ++ wU8 m.flags ++ wU32 m.senderKeyid ++
    wU32 m.receiverKeyid ++ wMpi m.dhY ++ m.ctr ++ wData m.encrypted

/-- `encode_authenticator_data4`, src/messages.rs 536-555. -/
def authenticatorData4 (v : UInt16) (sender receiver : UInt32) (m : DataMessage4) : Bytes :=
  wU16 v ++ wU8 0x03 ++ wU32 sender ++ wU32 receiver ++ wU8 m.flags ++ wU32 m.pn ++ wU32 m.i ++ wU32 m.j ++
    wPoint m.ecdh ++ wMpi (m.dh.getD 0) ++ wData m.encrypted

/-- `parse_encoded_content`, src/messages.rs 88-125. -/
def readContent (E : Env) (v : Version) (t : UInt8) : Dec EncodedMessageType :=
  match v with
  | .v3 =>
    if t = 0x02 then do return .dhCommit (← readDHCommit)
    else if t = 0x0a then do return .dhKey (← readDHKey)
    else if t = 0x11 then do return .revealSignature (← readRevealSignature)
    else if t = 0x12 then do return .signature (← readSignature)
    else if t = 0x03 then do return .data (← readDataMessage)
    else Dec.fail .protocolViolation
  | .v4 =>
    if t = 0x35 then do return .identity (← readIdentity E)
    else if t = 0x36 then do return .authR (← readAuthR E)
    else if t = 0x37 then do return .authI (← readAuthI E)
    else if t = 0x03 then do return .data4 (← readDataMessage4 E)
    else Dec.fail .protocolViolation
  | _ => Dec.fail .protocolViolation

/-- The version field, src/messages.rs 66-75. -/
def readVersion : Dec Version := do
  let v ← readU16
  if v = 0 then Dec.fail .protocolViolation
  else if v = 3 then pure .v3
  else if v = 4 then pure .v4
  else Dec.fail (.unsupportedVersion v)

/-- `parse_encoded_message` after base64, src/messages.rs 65-85. -/
def readEncoded (E : Env) : Dec EncodedMessage := do
  let v ← readVersion
  let t ← readU8
  let s ← readInstanceTag
  let r ← readInstanceTag
  let m ← readContent E v t
  pure ⟨v, s, r, m⟩

/-- `parse_encoded_message`, src/messages.rs 61-86. -/
def parseEncoded (E : Env) (data : Bytes) : Res MessageType :=
  match b64Decode data with
  | .none => .err .protocolViolation
  | some d => do
    let m ← runDec (readEncoded E) d
    return .encoded m

/-! ## Text forms -/

/-- `OTR_ERROR_PREFIX`, `?OTR Error:`, src/messages.rs 20. -/
def OTR_ERROR_PREFIX : Bytes := [0x3f, 0x4f, 0x54, 0x52, 0x20, 0x45, 0x72, 0x72, 0x6f, 0x72, 0x3a]

/-- `OTR_QUERY_PREFIX`, `?OTRv`, src/messages.rs 21. -/
def OTR_QUERY_PREFIX : Bytes := [0x3f, 0x4f, 0x54, 0x52, 0x76]

/-- `OTR_ENCODED_PREFIX`, `?OTR:`, src/messages.rs 22. -/
def OTR_ENCODED_PREFIX : Bytes := [0x3f, 0x4f, 0x54, 0x52, 0x3a]

/-- `OTR_ENCODED_SUFFIX`, `.`, src/messages.rs 23. -/
def OTR_ENCODED_SUFFIX : Bytes := [0x2e]

/-- `WHITESPACE_PREFIX`, src/messages.rs 45. -/
def WHITESPACE_PREFIX : Bytes :=
  [0x20, 0x09, 0x20, 0x20, 0x09, 0x09, 0x09, 0x09, 0x20, 0x09, 0x20, 0x09, 0x20, 0x09, 0x20, 0x20]

/-- `WHITESPACE_TAG_OTRV1`, src/messages.rs 46. -/
def WHITESPACE_TAG_OTRV1 : Bytes := [0x20, 0x09, 0x20, 0x09, 0x20, 0x20, 0x09, 0x20]

/-- `WHITESPACE_TAG_OTRV2`, src/messages.rs 47. -/
def WHITESPACE_TAG_OTRV2 : Bytes := [0x20, 0x20, 0x09, 0x09, 0x20, 0x20, 0x09, 0x20]

/-- `WHITESPACE_TAG_OTRV3`, src/messages.rs 48. -/
def WHITESPACE_TAG_OTRV3 : Bytes := [0x20, 0x20, 0x09, 0x09, 0x20, 0x20, 0x09, 0x09]

/-- `WHITESPACE_TAG_OTRV4`, src/messages.rs 49. -/
def WHITESPACE_TAG_OTRV4 : Bytes := [0x20, 0x20, 0x09, 0x09, 0x20, 0x09, 0x20, 0x20]

/-- `OTR_USE_INFORMATION_MESSAGE`, src/messages.rs 18. -/
def OTR_USE_INFORMATION_MESSAGE : Bytes :=
  [0x41, 0x6e, 0x20, 0x4f, 0x66, 0x66, 0x2d, 0x54, 0x68, 0x65, 0x2d, 0x52, 0x65, 0x63, 0x6f, 0x72, 0x64,
    0x20, 0x63, 0x6f, 0x6e, 0x76, 0x65, 0x72, 0x73, 0x61, 0x74, 0x69, 0x6f, 0x6e, 0x20, 0x68, 0x61, 0x73,
    0x20, 0x62, 0x65, 0x65, 0x6e, 0x20, 0x72, 0x65, 0x71, 0x75, 0x65, 0x73, 0x74, 0x65, 0x64, 0x2e]

/-- The group `(:?v(\d*))` followed by `\?`: the bytes of the group. -/
def queryGroup (nd : Nat → Bool) (s : Bytes) : Option Bytes :=
  let (colon, r) := match lit [0x3a] s with
    | some r => ([0x3a], r)
    | .none => (([] : Bytes), s)
  match lit [0x76] r with
  | .none => .none
  | some r =>
    let (ds, r') := digitRun nd r.length r
    (lit [0x3f] r').map fun _ => colon ++ [0x76] ++ ds

/-- `QUERY_PATTERN`, `\?OTR\??(:?v(\d*))?\?` at one offset, src/messages.rs 36-38: `none` if there is no
match, `some none` if it matches without the group.  The greedy `\??` takes a question mark if there is
one; if then neither the group followed by `\?` nor `\?` follows, the match gives it back. -/
def queryAt (nd : Nat → Bool) (s : Bytes) : Option (Option Bytes) :=
  match lit [0x3f, 0x4f, 0x54, 0x52] s with
  | .none => .none
  | some r =>
    match lit [0x3f] r with
    | some r1 => some (queryGroup nd r1)
    | .none => (queryGroup nd r).map some

/-- `[ \t]`. -/
def isBlank (b : UInt8) : Bool := b == 0x20 || b == 0x09

/-- `([ \t]{8})*`, greedy: the last block matched and the rest; the first argument is fuel. -/
def wsBlocks : Nat → Option Bytes → Bytes → Option Bytes × Bytes
  | 0, last, s => (last, s)
  | n + 1, last, s =>
    if 8 ≤ s.length && (s.take 8).all isBlank then wsBlocks n (some (s.take 8)) (s.drop 8) else (last, s)

/-- `WHITESPACE_PATTERN` at one offset, src/messages.rs 40-43: the capture group (the last block) and what
follows the match. -/
def wsAt (s : Bytes) : Option (Option Bytes × Bytes) :=
  (lit WHITESPACE_PREFIX s).map fun r => wsBlocks r.length .none r

/-- `WHITESPACE_PATTERN.replace_all(data, "")`, src/messages.rs 165-167; the first argument is fuel. -/
def wsRemove : Nat → Bytes → Bytes
  | 0, s => s
  | _ + 1, [] => []
  | n + 1, b :: r =>
    match wsAt (b :: r) with
    | some (_, rest) => wsRemove n rest
    | .none => b :: wsRemove n r

/-- One tag, src/messages.rs 179-185. -/
def parseTag (t : Bytes) : List Version :=
  if t = WHITESPACE_TAG_OTRV1 then [.unsupported 1]
  else if t = WHITESPACE_TAG_OTRV2 then [.unsupported 2]
  else if t = WHITESPACE_TAG_OTRV3 then [.v3]
  else if t = WHITESPACE_TAG_OTRV4 then [.v4]
  else []

/-- `parse_whitespace_tags`, src/messages.rs 176-188, for the one captured block of 8 bytes. -/
def parseWhitespaceTags (t : Bytes) : List Version := parseTag t

/-- The versions listed by the captured group, src/messages.rs 138-161. -/
def queryVersions (g : Bytes) : List Version :=
  g.filterMap fun c => if c = 0x33 then some .v3 else if c = 0x34 then some .v4 else .none

/-- `parse_plain_message`, src/messages.rs 127-174. -/
def parsePlain (nd : Nat → Bool) (data : Bytes) : Res MessageType :=
  if OTR_ERROR_PREFIX.isPrefixOf data then .ok (.error (data.drop OTR_ERROR_PREFIX.length))
  else match firstMatch (queryAt nd) data with
    | some (some g) => .ok (.query (queryVersions g))
    | some .none => .panic
    | .none =>
      match firstMatch wsAt data with
      | some (some t, _) => .ok (.tagged (parseWhitespaceTags t) (wsRemove data.length data))
      | some (.none, _) => .panic
      | .none => .ok (.plaintext data)

/-- `parse`, src/messages.rs 51-59. -/
def parse (E : Env) (data : Bytes) : Res MessageType :=
  if OTR_ENCODED_PREFIX.isPrefixOf data && OTR_ENCODED_SUFFIX.isSuffixOf data then
    parseEncoded E ((data.drop 5).take (data.length - 6))
  else parsePlain E.nd data

/-- The elements of `utils::alloc::vec_unique(versions)` (sorted, without duplicates), for a list of
versions 3 and 4, mapped by `f`; src/messages.rs 467, 489. -/
def uniqueVersions (f : Version → Bytes) (vs : List Version) : Bytes :=
  (if Version.v3 ∈ vs then f .v3 else []) ++ (if Version.v4 ∈ vs then f .v4 else [])

/-- The whitespace tag of a version, src/messages.rs 470-471. -/
def versionTag : Version → Bytes
  | .v3 => WHITESPACE_TAG_OTRV3
  | .v4 => WHITESPACE_TAG_OTRV4
  | _ => []

/-- The query digit of a version, src/messages.rs 492-493. -/
def versionDigit : Version → Bytes
  | .v3 => [0x33]
  | .v4 => [0x34]
  | _ => []

/-- `serialize_message`, src/messages.rs 452-514. -/
def serialize : MessageType → Res Bytes
  | .error e => .ok (OTR_ERROR_PREFIX ++ e)
  | .plaintext m => .ok m
  | .tagged vs m =>
    if vs ≠ [] ∧ vs.all Version.legal then .ok (WHITESPACE_PREFIX ++ uniqueVersions versionTag vs ++ m)
    else .panic
  | .query vs =>
    if vs ≠ [] ∧ vs.all Version.legal then
      .ok (OTR_QUERY_PREFIX ++ uniqueVersions versionDigit vs ++ [0x3f, 0x20] ++ OTR_USE_INFORMATION_MESSAGE)
    else .panic
  | .encoded m => do
    let b ← encodeEncoded m
    return OTR_ENCODED_PREFIX ++ b64Encode b ++ OTR_ENCODED_SUFFIX

/-- `encode_message`, src/messages.rs 437-449. -/
def encodeMessage (v : Version) (s r : UInt32) (m : EncodedMessageType) : Res Bytes :=
  serialize (.encoded ⟨v, s, r, m⟩)

end Otrr
