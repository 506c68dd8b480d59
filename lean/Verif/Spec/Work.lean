import Verif.Spec.Data4
/-! # The work done for a received OTRv4 message

The loop that finds the key of a received message, round by round, as it is written in the code. -/

namespace Otrr.Spec
open Otrr

/-- `Loop E j r n o`: the loop `while speculate.k() < msg.j { speculate.rotate_receiver_chainkey() }` (src/protocol.rs 695-703), begun with the
ratchet `r`, makes `n` rounds and ends with `o`. -/
inductive Loop (E : Env) (j : UInt32) : Ratchet → Nat → Res Ratchet → Prop
  | done {r} : ¬ r.id < j → Loop E j r 0 (.ok r)
  | round {r r' n o} : r.id < j → r.rotate E = .ok r' → Loop E j r' n o → Loop E j r (n + 1) o
  | crash {r} : r.id < j → r.rotate E = .panic → Loop E j r 1 .panic

/-- `Rounds E m now d n`: to check the message `m`, a client with the ratchet `d` makes `n` rounds of the loop. -/
def Rounds (E : Env) (m : DataMessage4) (now : Nat) (d : DoubleRatchet) (n : Nat) : Prop :=
  (∃ s o, speculate4 E m now d = .ok s ∧ Loop E m.j s.receiver n o) ∨ ((∀ s, speculate4 E m now d ≠ .ok s) ∧ n = 0)

end Otrr.Spec
