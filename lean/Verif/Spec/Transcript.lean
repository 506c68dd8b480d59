import Verif.Spec.Dake
import Verif.Spec.Messages
/-! # What the signatures of the OTRv4 key exchange are about -/

namespace Otrr.Spec
open Otrr

/-- Two different byte strings with the same hash, for one usage of the hash function. -/
def Collides (E : Env) (usage : UInt8) (a b : Bytes) : Prop := a ≠ b ∧ kdf E 64 usage a = kdf E 64 usage b

/-- The tags, first-ratchet keys and names, as hashed in the Auth-R message. -/
def Exchange.detailsR (e : Exchange) : Bytes :=
  wU32 e.alice.ownerTag ++ wU32 e.bob.ownerTag ++ e.aliceEcdh.encode ++ wMpi e.aliceDh ++ e.bobEcdh.encode ++ wMpi e.bobDh ++ wData e.aliceName ++
    wData e.bobName

/-- The tags, first-ratchet keys and names, as hashed in the Auth-I message. -/
def Exchange.detailsI (e : Exchange) : Bytes :=
  wU32 e.bob.ownerTag ++ wU32 e.alice.ownerTag ++ e.bobEcdh.encode ++ wMpi e.bobDh ++ e.aliceEcdh.encode ++ wMpi e.aliceDh ++ wData e.bobName ++
    wData e.aliceName

/-- The byte string of which the challenge of a ring signature over `m` is computed. -/
def ringInput (E : Env) (s : RingSignature) (A1 A2 A3 : Point) (m : Bytes) : Bytes :=
  let T (r c : Nat) (A : Point) := Point.add E.curve (Point.mul E.curve E.curve.G r) (Point.mul E.curve A c)
  E.curve.G.encode ++ leBytes 57 E.curve.q ++ A1.encode ++ A2.encode ++ A3.encode ++
    (T s.r1 s.c1 A1).encode ++ (T s.r2 s.c2 A2).encode ++ (T s.r3 s.c3 A3).encode ++ wData m

/-- Two different byte strings with the same challenge. -/
def SameChallenge (E : Env) (a b : Bytes) : Prop :=
  a ≠ b ∧ leNat (kdf E 57 0x1a a) % E.curve.q = leNat (kdf E 57 0x1a b) % E.curve.q

/-- An exchange whose messages fit the wire format, with accepted profiles, and names of less than 4 GB. -/
structure Sound (E : Env) (e : Exchange) : Prop where
  payloads : WfPayload E e.bobPayload ∧ WfPayload E e.alicePayload
  accepted : e.bobPayload.validate E = .ok e.bob ∧ e.alicePayload.validate E = .ok e.alice
  points : OnCurve E.curve e.y ∧ OnCurve E.curve e.x ∧ OnCurve E.curve e.bobEcdh ∧ OnCurve E.curve e.aliceEcdh
  sizes : FitsMpi e.b ∧ FitsMpi e.a ∧ FitsMpi e.bobDh ∧ FitsMpi e.aliceDh
  names : e.bobName.length < 2 ^ 32 ∧ e.aliceName.length < 2 ^ 32

/-- The names of the accounts are shorter than 4 GB. -/
def ShortNames (host : DAKEHost) : Prop := host.account.length < 2 ^ 32 ∧ host.contact.length < 2 ^ 32

theorem ShortNames.symm {host : DAKEHost} (h : ShortNames host) : host.contact.length < 2 ^ 32 ∧ host.account.length < 2 ^ 32 := ⟨h.2, h.1⟩

end Otrr.Spec
