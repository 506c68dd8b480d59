import Verif.Spec.SessionFragments
import Verif.Lemmas.SessionToy
/-!
The data messages of the toy sessions, cut into fragments.
-/

namespace Otrr.Spec.ToySession
open Otrr

/-- The message that is the text. -/
def messageOf (t : Bytes) : EncodedMessage :=
  match parse tinyEnv t with
  | .ok (.encoded m) => m
  | _ => ⟨.none, 0, 0, .unencoded []⟩

/-- The texts of the fragments of a message. -/
def cut (size : Nat) (t : Bytes) : List Fragment :=
  match fragmentContent [1, 2, 3, 4] size (messageOf t).version (messageOf t).sender (messageOf t).receiver t with
  | .ok fs => fs
  | _ => []

def cutTexts (size : Nat) (t : Bytes) : List Bytes :=
  match (cut size t).mapM encodeFragment with
  | .ok out => out
  | _ => []

@[irreducible] def m3 : EncodedMessage := messageOf (text a6)
@[irreducible] def m4 : EncodedMessage := messageOf (text d6)
@[irreducible] def frags3 : List Fragment := cut 60 (text a6)
@[irreducible] def frags4 : List Fragment := cut 100 (text d6)
@[irreducible] def texts3 : List Bytes := cutTexts 60 (text a6)
@[irreducible] def texts4 : List Bytes := cutTexts 100 (text d6)

theorem cut3 : m3.version = .v3 ∧ serialize (.encoded m3) = .ok (text a6) ∧ parse tinyEnv (text a6) = .ok (.encoded m3) ∧
    m3.sender = 0x100 ∧ m3.receiver = 0x102 ∧ 60 < (text a6).length ∧ (text a6).length ≤ 65535 ∧
    fragmentContent [1, 2, 3, 4] 60 m3.version m3.sender m3.receiver (text a6) = .ok frags3 ∧ frags3.mapM encodeFragment = .ok texts3 ∧
    texts3.length = 4 := by decide +kernel

theorem cut4 : m4.version = .v4 ∧ serialize (.encoded m4) = .ok (text d6) ∧ parse tinyEnv (text d6) = .ok (.encoded m4) ∧
    m4.sender = 0x102 ∧ m4.receiver = 0x100 ∧ 100 < (text d6).length ∧ (text d6).length ≤ 65535 ∧
    fragmentContent [1, 2, 3, 4] 100 m4.version m4.sender m4.receiver (text d6) = .ok frags4 ∧ frags4.mapM encodeFragment = .ok texts4 ∧
    texts4.length = 5 ∧ (storedFragments c4.after 0x102).store = [] ∧ (storedFragments c4.after 0x102).tick = 0 := by decide +kernel

end Otrr.Spec.ToySession
