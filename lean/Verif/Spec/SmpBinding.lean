import Verif.Spec.Smp
import Verif.Spec.Smp4
import Verif.Model.Ratchet
/-!
# What the SMP compares

Each client hashes what it knows of the session, together with the secret that its user gave.  Whoever sits between two users has a session
with each of them, and so these two sessions have different SSIDs, or different fingerprints.
-/

namespace Otrr.Spec
open Otrr

/-- What a client hashes in OTRv3: version, the fingerprints of the initiator and the responder of the SMP, SSID, and secret. -/
def compared3 (initiator responder ssid secret : Bytes) : Bytes := [1] ++ initiator ++ responder ++ ssid ++ secret

/-- What a client hashes in OTRv4. -/
def compared4 (initiator responder ssid secret : Bytes) : Bytes := [1] ++ initiator ++ responder ++ ssid ++ wData secret

/-- The number that is compared in OTRv3, and in OTRv4; both are compared modulo the order of the group. -/
def number3 (E : Env) (b : Bytes) : Nat := beNat (E.sha256 b) % E.dh.q
def number4 (E : Env) (b : Bytes) : Nat := leNat (prune (kdf E 57 0x19 b)) % E.curve.q

/-- The two clients, with the keys `kA` and `kB`, are in the same session with each other, as each of them sees it; and their users gave the
same secret. -/
def SameView3 (E : Env) (kA kB : DSAPublicKey) (A B : SMPContext) (sA sB : Bytes) : Prop :=
  A.their = fingerprint3 E kB ∧ B.their = fingerprint3 E kA ∧ A.ssid = B.ssid ∧ sA = sB

def SameView4 (A B : SMP4Context) (sA sB : Bytes) : Prop := A.us = B.them ∧ A.them = B.us ∧ A.ssid = B.ssid ∧ sA = sB

/-- The status tells the truth about `p`: success if it holds, failure if not. -/
def Tells (p : Prop) (s : SMPStatus) : Prop := (p → s = .completed) ∧ (¬ p → s = .aborted)

/-- SSID and fingerprint as they come from a key exchange: 8 bytes of a hash of the shared secret, and the fingerprint of a public key. -/
def Tied3 (E : Env) (c : SMPContext) : Prop :=
  (∃ secret, c.ssid = (E.sha256 (0 :: secret)).take 8) ∧ ∃ pk, c.their = fingerprint3 E pk

/-- In OTRv4, fingerprints are those of an identity key and a forging key. -/
def Tied4 (E : Env) (c : SMP4Context) : Prop :=
  (∃ secret, c.ssid = kdf E 8 0x04 secret) ∧ (∃ H F, c.us = fingerprint4 E H F) ∧ ∃ H F, c.them = fingerprint4 E H F

end Otrr.Spec
