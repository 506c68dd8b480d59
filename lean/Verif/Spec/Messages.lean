import Verif.Model.Messages
import Verif.Spec.Wire
import Verif.Spec.Curve
/-!
# Specification vocabulary for messages and client profiles
-/

namespace Otrr.Spec

/-- The instance tags the protocol permits. -/
def ValidTag (t : UInt32) : Prop := t = 0 ∨ 0x100 ≤ t

/-- A DSA public key with a 160-bit `q` that the DSA library accepts. -/
structure WfDsaKey (E : Env) (k : DSAPublicKey) : Prop where
  ok : E.dsaKeyOk k.p k.q k.g k.y = true
  qlow : 2 ^ 159 ≤ k.q
  qhigh : k.q < 2 ^ 160
  p : FitsMpi k.p
  g : FitsMpi k.g
  y : FitsMpi k.y

/-- Two positive numbers of at most 160 bits. -/
structure WfDsaSig (s : DSASignature) : Prop where
  r : 0 < s.r ∧ s.r < 2 ^ 160
  s : 0 < s.s ∧ s.s < 2 ^ 160

/-- A ring signature whose six scalars are in the range 1 .. q-1. -/
def WfRing (c : Curve) (s : RingSignature) : Prop :=
  ∀ v ∈ [s.c1, s.r1, s.c2, s.r2, s.c3, s.r3], 0 < v ∧ v < c.q

/-- A profile field that fits the wire format. -/
def WfField (E : Env) : Field → Prop
  | .ownerTag t => ValidTag t
  | .identityKey k => OnCurve E.curve k
  | .forgingKey k => OnCurve E.curve k
  | .versions vs => (∀ v ∈ vs, v = .v3 ∨ v = .v4) ∧ vs.length < 2 ^ 32
  | .expiration _ => True
  | .legacyKey k => WfDsaKey E k
  | .transitionalSignature s => WfDsaSig s

/-- A payload that fits the wire format and that passes validation. -/
structure WfPayload (E : Env) (p : ClientProfilePayload) : Prop where
  fields : ∀ f ∈ p.fields, WfField E f
  count : p.fields.length < 2 ^ 32
  sig : p.signature.r.length = 57 ∧ p.signature.s.length = 57
  accepted : ∃ prof, p.validate E = .ok prof

/-- A message whose parts fit the wire format: lengths fit their prefixes, arrays have their size, key ids
are not 0, flags are defined, points are on the curve. -/
def WfMessage (E : Env) : EncodedMessageType → Prop
  | .unencoded _ => False
  | .dhCommit m => m.gxEncrypted.length < 2 ^ 32 ∧ m.gxHashed.length < 2 ^ 32
  | .dhKey m => FitsMpi m.gy
  | .revealSignature m => m.key.length = 16 ∧ m.sigEncrypted.length < 2 ^ 32 ∧ m.sigMac.length = 20
  | .signature m => m.sigEncrypted.length < 2 ^ 32 ∧ m.sigMac.length = 20
  | .data m => (m.flags = 0 ∨ m.flags = 1) ∧ m.senderKeyid ≠ 0 ∧ m.receiverKeyid ≠ 0 ∧ FitsMpi m.dhY ∧
      m.ctr.length = 8 ∧ m.encrypted.length < 2 ^ 32 ∧ m.authenticator.length = 20 ∧ m.revealed.length < 2 ^ 32
  | .identity m => WfPayload E m.profile ∧ OnCurve E.curve m.y ∧ FitsMpi m.b ∧ OnCurve E.curve m.ecdh0 ∧
      FitsMpi m.dh0
  | .authR m => WfPayload E m.profile ∧ OnCurve E.curve m.x ∧ FitsMpi m.a ∧ WfRing E.curve m.sigma ∧
      OnCurve E.curve m.ecdh0 ∧ FitsMpi m.dh0
  | .authI m => WfRing E.curve m.sigma
  | .data4 m => (m.flags = 0 ∨ m.flags = 1) ∧ OnCurve E.curve m.ecdh ∧
      (∀ v, m.dh = some v → v ≠ 0 ∧ FitsMpi v) ∧ m.encrypted.length < 2 ^ 32 ∧ m.authenticator.length = 64 ∧
      m.revealed.length < 2 ^ 32 ∧ 64 ∣ m.revealed.length

/-- The protocol version a message type belongs to. -/
def DefinedFor : EncodedMessageType → Version → Prop
  | .unencoded _, _ => False
  | .dhCommit _, v => v = .v3
  | .dhKey _, v => v = .v3
  | .revealSignature _, v => v = .v3
  | .signature _, v => v = .v3
  | .data _, v => v = .v3
  | .identity _, v => v = .v4
  | .authR _, v => v = .v4
  | .authI _, v => v = .v4
  | .data4 _, v => v = .v4

/-- `p` occurs in `s`. -/
def Occurs (p s : Bytes) : Prop := ∃ a b, s = a ++ p ++ b

/-- `?OTR`: every query, error, encoded message and fragment starts with it. -/
def OTR_MARK : Bytes := [0x3f, 0x4f, 0x54, 0x52]

/-- The sixteen blanks that announce a whitespace tag. -/
def TAG_MARK : Bytes := [32, 9, 32, 32, 9, 9, 9, 9, 32, 9, 32, 9, 32, 9, 32, 32]

/-- The eight blanks that stand for a version. -/
def TagOf : Version → Bytes → Prop
  | .v3, t => t = [32, 32, 9, 9, 32, 32, 9, 9]
  | .v4, t => t = [32, 32, 9, 9, 32, 9, 32, 32]
  | _, _ => False

/-- A block of eight blanks: spaces and tabs. -/
def TagBlock (b : Bytes) : Prop := b.length = 8 ∧ ∀ c ∈ b, c = 32 ∨ c = 9

/-- The kind of a profile field, its number on the wire. -/
def kind : Field → Nat
  | .ownerTag _ => 1
  | .identityKey _ => 2
  | .forgingKey _ => 3
  | .versions _ => 4
  | .expiration _ => 5
  | .legacyKey _ => 6
  | .transitionalSignature _ => 7

end Otrr.Spec
