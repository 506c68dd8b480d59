import Verif.Model.Ed448
import Verif.Model.KeyManager
/-!
# Model of the double ratchet, module `otr4` of src/crypto.rs

`std::time::Instant` is a number of nanoseconds; functions that read the clock take `now`.
-/

namespace Otrr

/-- `.expect(..)`: an error becomes a panic. -/
def Res.expect (x : Res α) : Res α :=
  match x with
  | .ok a => .ok a
  | _ => .panic

/-- `Selector`, src/crypto.rs 934-939. -/
inductive Selector
  | sender
  | receiver
  deriving DecidableEq, Repr

/-! ## Mixed shared secret -/

/-- `MixedSharedSecret`, src/crypto.rs 942-950. -/
structure Mixed where
  ecdh : ECDHKeyPair
  dh : DH.Keypair
  publicEcdh : Point
  publicDh : Nat
  brace : Bytes
  k : Bytes
  deriving DecidableEq, Repr

namespace Mixed

/-- The brace key, src/crypto.rs 1040-1048: `USAGE_THIRD_BRACE_KEY` = 1, `USAGE_BRACE_KEY` = 2. -/
def nextBrace (E : Env) (dh : DH.Keypair) (publicDh : Nat) (third : Bool) (prev : Bytes) : Res Bytes :=
  if third then .ok (kdf E 32 0x01 (natToBE (dh.sharedSecret E.dh3 publicDh)))
  else if anyNonzero prev then .ok (kdf E 32 0x02 prev)
  else .panic

/-- `MixedSharedSecret::next`, src/crypto.rs 1028-1059; `USAGE_SHARED_SECRET` = 3. -/
def next (E : Env) (ecdh : ECDHKeyPair) (dh : DH.Keypair) (publicEcdh : Point) (publicDh : Nat) (third : Bool)
    (prev : Bytes) : Res Mixed := do
  Point.verify E.curve publicEcdh
  DH.verify3 E.dh3 publicDh
  let kEcdh := (ecdh.sharedSecret E publicEcdh).encode
  Res.assert (anyNonzero kEcdh)
  let brace ← nextBrace E dh publicDh third prev
  return ⟨ecdh, dh, publicEcdh, publicDh, brace, kdf2 E 64 0x03 kEcdh brace⟩

/-- `MixedSharedSecret::new`, src/crypto.rs 964-979. -/
def new (E : Env) (ecdh0 : ECDHKeyPair) (dh0 : DH.Keypair) (publicEcdh : Point) (publicDh : Nat) : Res Mixed :=
  next E ecdh0 dh0 publicEcdh publicDh true (List.replicate 32 0)

/-- `rotate_keypairs`, src/crypto.rs 986-1000. -/
def rotateKeypairs (E : Env) (s : Mixed) (third : Bool) (r : Rand) : Res Mixed :=
  let dh := if third then DH.Keypair.generate3 E.dh3 (r.bytes [0] 80) else s.dh
  (next E (ECDHKeyPair.generate E (r.bytes [1] 57)) dh s.publicEcdh s.publicDh third s.brace).expect

/-- `rotate_others`, src/crypto.rs 1010-1026. -/
def rotateOthers (E : Env) (s : Mixed) (third : Bool) (ecdhNext : Point) (dhNext : Nat) : Res Mixed := do
  Res.assert (third == (dhNext != s.publicDh))
  next E s.ecdh s.dh ecdhNext dhNext third s.brace

end Mixed

/-! ## Ratchets -/

/-- `Ratchet`, src/crypto.rs 881-884. -/
structure Ratchet where
  chain : Bytes
  id : UInt32
  deriving DecidableEq, Repr

/-- `Keys`, src/crypto.rs 917-923. -/
structure RatchetKeys where
  enc : Bytes
  mac : Bytes
  extra : Bytes
  deriving DecidableEq, Repr

/-- `Ratchet::rotate`, src/crypto.rs 900-903; `USAGE_NEXT_CHAIN_KEY` = 0x14. -/
def Ratchet.rotate (E : Env) (r : Ratchet) : Res Ratchet := do
  let n ← incId r.id
  return ⟨kdf E 64 0x14 r.chain, n⟩

/-- `Ratchet::keys`, src/crypto.rs 906-912; `USAGE_MESSAGE_KEY` = 0x15, `USAGE_MAC_KEY` = 0x16,
`USAGE_EXTRA_SYMMETRIC_KEY` = 0x17. -/
def Ratchet.keys (E : Env) (r : Ratchet) : Res RatchetKeys :=
  if anyNonzero r.chain then
    let enc := kdf E 64 0x15 r.chain
    .ok ⟨enc, kdf E 64 0x16 enc, kdf2 E 64 0x17 [0xff] r.chain⟩
  else .panic

/-- The loop `while speculate.k() < msg.j`, src/protocol.rs 695-703, for a known number of rounds. -/
def Ratchet.forward (E : Env) : Nat → Ratchet → Res Ratchet
  | 0, r => .ok r
  | n + 1, r => do
    let r' ← r.rotate E
    Ratchet.forward E n r'

/-- `DoubleRatchet`, src/crypto.rs 660-670. -/
structure DoubleRatchet where
  created : Nat
  shared : Mixed
  root : Bytes
  sender : Ratchet
  receiver : Ratchet
  next : Selector
  i : UInt32
  pn : UInt32
  reveals : Bytes
  deriving DecidableEq, Repr

namespace DoubleRatchet

/-- `DoubleRatchet::initialize`, src/crypto.rs 684-724; `USAGE_ROOT_KEY` = 0x12, `USAGE_CHAIN_KEY` = 0x13. -/
def init (E : Env) (sel : Selector) (shared : Mixed) (prevRoot : Bytes) (now : Nat) : DoubleRatchet :=
  let chain : Ratchet := ⟨kdf2 E 64 0x13 prevRoot shared.k, 0⟩
  let zero : Ratchet := ⟨List.replicate 64 0, 0⟩
  let root := kdf2 E 64 0x12 prevRoot shared.k
  match sel with
  | .sender => ⟨now, shared, root, chain, zero, .receiver, 0, 0, []⟩
  | .receiver => ⟨now, shared, root, zero, chain, .sender, 0, 0, []⟩

/-- `rotate_sender`, src/crypto.rs 747-766. -/
def rotateSender (E : Env) (d : DoubleRatchet) (r : Rand) (now : Nat) : Res DoubleRatchet := do
  Res.assert (d.next = .sender)
  let s ← d.shared.rotateKeypairs E (d.i % 3 == 0) r
  let i ← incId d.i
  return { d with
    created := now
    shared := s
    root := kdf2 E 64 0x12 d.root s.k
    sender := ⟨kdf2 E 64 0x13 d.root s.k, 0⟩
    next := .receiver
    i := i
    pn := d.sender.id }

/-- `rotate_sender_chainkey`, src/crypto.rs 774-777. -/
def rotateSenderChain (E : Env) (d : DoubleRatchet) : Res DoubleRatchet := do
  Res.assert (d.next = .receiver)
  let s ← d.sender.rotate E
  return { d with sender := s }

/-- `rotate_receiver`, src/crypto.rs 786-814. -/
def rotateReceiver (E : Env) (d : DoubleRatchet) (ecdhNext : Point) (dhNext : Nat) (now : Nat) :
    Res DoubleRatchet := do
  Res.assert (d.next = .receiver)
  Res.assert (dhNext != 0)
  Res.assert ((d.i % 3 == 0) == (dhNext != d.shared.publicDh))
  let s ← d.shared.rotateOthers E (d.i % 3 == 0) ecdhNext dhNext
  let i ← incId d.i
  return { d with
    created := now
    shared := s
    root := kdf2 E 64 0x12 d.root s.k
    receiver := ⟨kdf2 E 64 0x13 d.root s.k, 0⟩
    next := .sender
    i := i }

/-- `confirm_receiver_keys`, src/crypto.rs 822-825. -/
def confirmReceiver (E : Env) (d : DoubleRatchet) : Res DoubleRatchet := do
  let keys ← d.receiver.keys E
  let r ← d.receiver.rotate E
  return { d with reveals := d.reveals ++ keys.mac, receiver := r }

end DoubleRatchet

/-- `fingerprint`, src/crypto.rs 1068-1075; `USAGE_FINGERPRINT` = 0. -/
def fingerprint4 (E : Env) (identity forging : Point) : Bytes := kdf2 E 56 0x00 identity.encode forging.encode

end Otrr
