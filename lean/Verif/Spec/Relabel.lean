import Verif.Spec.Replay
/-! # Messages of a key exchange under another instance tag -/

namespace Otrr.Spec
open Otrr Otrr.Session

/-- The tag `k` becomes `k'`, and `k'` becomes `k`. -/
def rename (k k' x : UInt32) : UInt32 := if x = k then k' else if x = k' then k else x

/-- The text `p'` is the message of the text `p`, with another sender or receiver tag in its header, and nothing else changed. -/
def Relabelled (E : Env) (k k' : UInt32) (p p' : Bytes) : Prop :=
  ∃ m, parse E p = .ok (.encoded m) ∧
    parse E p' = .ok (.encoded { m with sender := rename k k' m.sender, receiver := rename k k' m.receiver })

/-- All that the network delivered in the history `h` of a client are the query `q` and messages that its peer put on the network in `h'`, in which
the network exchanged the tags `k` and `k'` in the header. -/
def OnlyRelabels (E : Env) (q : Bytes) (k k' : UInt32) (h h' : List Ev) : Prop :=
  ∀ e ∈ h, ∀ p, e.op = .receive p → p = q ∨ ∃ e' ∈ h', ∃ p', (p' ∈ e'.sent ∨ e'.result = .ok (.texts [p'])) ∧ Relabelled E k k' p' p

/-- The tag that the owner of the profile in this message signed, if the message has a profile that is accepted. -/
def signedTag (E : Env) (p : Bytes) : Option UInt32 :=
  match parse E p with
  | .ok (.encoded ⟨_, _, _, .identity m⟩) => match m.profile.validate E with | .ok x => some x.ownerTag | _ => none
  | .ok (.encoded ⟨_, _, _, .authR m⟩) => match m.profile.validate E with | .ok x => some x.ownerTag | _ => none
  | _ => none

end Otrr.Spec
