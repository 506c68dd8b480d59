import Verif.Spec.Session
import Verif.Spec.Schedule
/-! Specification of C120: what an encrypted message tells about its text.  Ciphers add a key stream to the text.  The specification asks how the key
stream would have to be changed, for one key, for another text to give the same message. -/

namespace Otrr.Spec
open Otrr

/-- A key of one of the two ciphers: AES in counter mode with a nonce, or ChaCha20. -/
inductive CipherKey
  | aes (key nonce : Bytes)
  | chacha (key : Bytes)

/-- The same primitives, but for the key stream of one key, which begins with `pad`. -/
def repad (E : Env) (K : CipherKey) (pad : Bytes) : Env :=
  match K with
  | .aes key nonce => { E with aesStream := fun k n i => if k = key ∧ n = nonce then pad.getD i 0 else E.aesStream k n i }
  | .chacha key => { E with chachaStream := fun k i => if k = key then pad.getD i 0 else E.chachaStream k i }

/-! ## Whole conversations -/

/-- The same primitives with another key stream of ChaCha20. -/
def withStream (E : Env) (stream : Bytes → Nat → UInt8) : Env := { E with chachaStream := stream }

/-- What a client reports, if it finds this plaintext in an authentic message. -/
def Reports (plain : Bytes) (r : Res (PMessage × Bool)) : Prop :=
  match parseMessage plain with
  | .ok (.confidential c t) => r = .ok (.confidential c t, false)
  | .ok (.confidentialFinished c) => r = .ok (.confidentialFinished c, true)
  | .err e => r = .err e
  | .panic => False

/-- Another story about the same message: it carried another plaintext of the same length.  Only the announcement of the end is what it is. -/
def Retold : Use4 → Use4 → Prop
  | .sent m plain, .sent m' plain' => m' = m ∧ plain'.length = plain.length ∧ (plain = disconnectPlain → plain' = plain)
  | .read m ad _, .read m' ad' r' => m' = m ∧ ad' = ad ∧ ∃ plain', plain'.length = m.encrypted.length ∧ Reports plain' r'
  | _, _ => False

end Otrr.Spec
