import Verif.Spec.Schedule
import Verif.Spec.Dake
/-! # What can be computed from the keys that a client keeps

The keys of the OTRv4 key schedule by name, and the computations that lead from one to another. -/

namespace Otrr.Spec
open Otrr

/-- The name of a secret of the key schedule. -/
inductive Secret
  /-- the root key before ratchet `n` -/
  | root (n : Nat)
  /-- the secret of the two key agreements that is mixed in with ratchet `n` -/
  | mixed (n : Nat)
  /-- the chain key of ratchet `n` for message `j` -/
  | chain (n j : Nat)
  /-- the encryption key of a message -/
  | message (n j : Nat)
  /-- the MAC key of a message -/
  | mac (n j : Nat)

/-- The value of a secret, for the secret `k` of the key exchange and the list `ks` of secrets mixed in. -/
def Secret.value (E : Env) (k : Bytes) (ks : List Bytes) : Secret → Bytes
  | .root n => rootKey E k (ks.take n)
  | .mixed n => ks.getD n []
  | .chain n j => chainKey E k ks n j
  | .message n j => messageKey E k ks (n, j)
  | .mac n j => macKey E k ks (n, j)

/-- What can be computed from known secrets with the key schedule. -/
inductive Computable (K : Secret → Prop) : Secret → Prop
  | known {x} : K x → Computable K x
  | root {n} : Computable K (.root n) → Computable K (.mixed n) → Computable K (.root (n + 1))
  | first {n} : Computable K (.root n) → Computable K (.mixed n) → Computable K (.chain n 0)
  | next {n j} : Computable K (.chain n j) → Computable K (.chain n (j + 1))
  | message {n j} : Computable K (.chain n j) → Computable K (.message n j)
  | mac {n j} : Computable K (.message n j) → Computable K (.mac n j)

/-- `HeldBy E k ks K d`: the root key, the chain keys, and the MAC keys to reveal in the double ratchet `d` are the values of secrets in `K`.
(A chain that was never used is all zero.) -/
structure HeldBy (E : Env) (k : Bytes) (ks : List Bytes) (K : List Secret) (d : DoubleRatchet) : Prop where
  root : ∃ x ∈ K, d.root = x.value E k ks
  sender : d.sender.chain = List.replicate 64 0 ∨ ∃ x ∈ K, d.sender.chain = x.value E k ks
  receiver : d.receiver.chain = List.replicate 64 0 ∨ ∃ x ∈ K, d.receiver.chain = x.value E k ks
  reveals : ∃ ps : List (Nat × Nat), (∀ p ∈ ps, Secret.mac p.1 p.2 ∈ K) ∧
    d.reveals <:+ (ps.map fun p => (Secret.mac p.1 p.2).value E k ks).flatten

/-- `KeptOn E s s'`: the context of the key exchange was in state `s`, and after any calls and any messages it is in state `s'`, but no
further Identity message was answered. -/
inductive KeptOn (E : Env) (s : DAKEState) : DAKEState → Prop
  | now : KeptOn E s s
  | initiate {s1 s2 host rnd r} : KeptOn E s s1 → DAKE.initiate E host rnd s1 = (r, s2) → KeptOn E s s2
  | identity {s1 s2 host m rnd e} : KeptOn E s s1 → DAKE.handleIdentity E host m rnd s1 = (.err e, s2) → KeptOn E s s2
  | authR {s1 s2 host m rnd now r} : KeptOn E s s1 → DAKE.handleAuthR E host m rnd now s1 = (r, s2) → KeptOn E s s2
  | authI {s1 s2 host m now r} : KeptOn E s s1 → DAKE.handleAuthI E host m now s1 = (r, s2) → KeptOn E s s2

/-- Someone who gets hold of the state of the key exchange of a client, and recorded the Auth-I message and the data message `m`, computes
the text of `m`.  (`host` stands for the names of the accounts.) -/
def recovered (E : Env) (s : DAKEState) (host : DAKEHost) (i : AuthIMessage) (m : DataMessage4) : Option Bytes :=
  match DAKE.handleAuthI E host i 0 s with
  | (.ok mat, _) => some (chachaCrypt E ((kdf E 64 0x15 (chainFwd E m.j.toNat mat.ratchet.sender.chain)).take 32) m.encrypted)
  | _ => none

/-- Only messages sent, none accepted. -/
def OnlySent (us : List Use4) : Prop := ∀ u ∈ us, ∃ m plain, u = .sent m plain

end Otrr.Spec
