import Verif.Model.Crypto
/-! # Model of src/keymanager.rs

Methods with `&mut self` are computations in `StM`: the state is kept also when the method returns `Err`.
-/

namespace Otrr

/-- A Rust method on mutable state: outcome and final state.  After a panic the state is meaningless. -/
def StM (σ α : Type) := σ → Res α × σ

namespace StM

/-- Sequencing with `?`: state changes made before an error are kept. -/
instance : Monad (StM σ) where
  pure a := fun s => (.ok a, s)
  bind x f := fun s =>
    match x s with
    | (.ok a, s') => f a s'
    | (.err e, s') => (.err e, s')
    | (.panic, s') => (.panic, s')

/-- A computation that does not touch the state. -/
def lift (r : Res α) : StM σ α := fun s => (r, s)

/-- Read a value off the state. -/
def gets (f : σ → α) : StM σ α := fun s => (.ok (f s), s)

/-- A read-only method. -/
def query (f : σ → Res α) : StM σ α := fun s => (f s, s)

/-- Change the state. -/
def modify (f : σ → σ) : StM σ Unit := fun s => (.ok (), f s)

theorem pure_run (a : α) (s : σ) : (pure a : StM σ α) s = (.ok a, s) := rfl

theorem bind_run (x : StM σ α) (f : α → StM σ β) (s : σ) :
    (x >>= f) s = match x s with
      | (.ok a, s') => f a s'
      | (.err e, s') => (.err e, s')
      | (.panic, s') => (.panic, s') := rfl

end StM

/-- `KeyID + 1` on `u32` with overflow check. -/
def incId (id : UInt32) : Res UInt32 := if id = 0xFFFFFFFF then .panic else .ok (id + 1)

/-! ## Counters -/

/-- `COUNTER_INITIAL_VALUE`, src/keymanager.rs 328-329. -/
def COUNTER_INITIAL : Bytes := [0, 0, 0, 0, 0, 0, 0, 0]

/-- The loop of `Counter::take` from the last byte, src/keymanager.rs 314-321, on the reversed counter:
`none` when all bytes carried. -/
def incLE : Bytes → Option Bytes
  | [] => .none
  | b :: bs => if b = 0xFF then (incLE bs).map (0 :: ·) else some ((b + 1) :: bs)

/-- `Counter::take`, src/keymanager.rs 312-323: the new value of the counter. -/
def counterTake (c : Bytes) : Res Bytes :=
  match incLE c.reverse with
  | .none => .panic
  | some r => do
    Res.assert (anyNonzero r.reverse)
    return r.reverse

/-- `Counter::verify`, src/keymanager.rs 295-310: the new value of the counter. -/
def counterVerify (c ctr : Bytes) : Res Bytes :=
  if allZero ctr then .err .protocolViolation
  else do
    match ← cmpBytes ctr c with
    | .gt => return ctr
    | .lt => .err .protocolViolation
    | .eq => .err .protocolViolation

/-! ## Key rotation -/

/-- An array of `NUM_KEYS = 2` slots, src/keymanager.rs 129. -/
structure Slots (α : Type) where
  even : α
  odd : α
  deriving DecidableEq, Repr

/-- `keys[id as usize % NUM_KEYS]`. -/
def Slots.get (s : Slots α) (id : UInt32) : α := if id.toNat % 2 = 0 then s.even else s.odd

/-- `keys[id as usize % NUM_KEYS] = v`. -/
def Slots.set (s : Slots α) (id : UInt32) (v : α) : Slots α :=
  if id.toNat % 2 = 0 then { s with even := v } else { s with odd := v }

/-- `keys[(id as usize + 1) % NUM_KEYS]`. -/
def Slots.getNext (s : Slots α) (id : UInt32) : α := if (id.toNat + 1) % 2 = 0 then s.even else s.odd

/-- `keys[(id as usize + 1) % NUM_KEYS] = v`. -/
def Slots.setNext (s : Slots α) (id : UInt32) (v : α) : Slots α :=
  if (id.toNat + 1) % 2 = 0 then { s with even := v } else { s with odd := v }

/-- `KeypairRotation`, src/keymanager.rs 132-135. -/
structure KeypairRotation where
  keys : Slots DH.Keypair
  acknowledged : UInt32
  deriving DecidableEq, Repr

/-- `PublicKeyRotation`, src/keymanager.rs 207-210. -/
structure PublicKeyRotation where
  keys : Slots Nat
  id : UInt32
  deriving DecidableEq, Repr

/-- `KeypairRotation::new`, src/keymanager.rs 151-160. -/
def KeypairRotation.new (G : DHGroup) (id : UInt32) (k : DH.Keypair) (r : Rand) : Res KeypairRotation := do
  Res.assert (id != 0)
  Res.assert (DH.verifyPublicKey G k.pub).isOk
  let keys : Slots DH.Keypair :=
    ⟨DH.Keypair.generate G (r.bytes [0] 192), DH.Keypair.generate G (r.bytes [1] 192)⟩
  return ⟨keys.set id k, id⟩

/-- `KeypairRotation::current`, src/keymanager.rs 163-166. -/
def KeypairRotation.current (k : KeypairRotation) : UInt32 × DH.Keypair :=
  (k.acknowledged, k.keys.get k.acknowledged)

/-- `KeypairRotation::next`, src/keymanager.rs 169-172. -/
def KeypairRotation.next (k : KeypairRotation) : Res (UInt32 × DH.Keypair) := do
  let n ← incId k.acknowledged
  return (n, k.keys.getNext k.acknowledged)

/-- `KeypairRotation::select`, src/keymanager.rs 174-186.  The addition is only evaluated when the first
alternative fails. -/
def KeypairRotation.select (k : KeypairRotation) (id : UInt32) : Res DH.Keypair := do
  Res.assert (id != 0)
  if id > 0 ∧ k.acknowledged = id then return k.keys.get id
  else do
    let n ← incId k.acknowledged
    if n = id then return k.keys.get id else .err .protocolViolation

/-- `KeypairRotation::acknowledge`, src/keymanager.rs 191-203; `fresh` are the random bytes of the key
pair it may generate. -/
def KeypairRotation.acknowledge (G : DHGroup) (k : KeypairRotation) (id : UInt32) (fresh : Bytes) :
    Res (Bool × KeypairRotation) :=
  if id = k.acknowledged then .ok (false, k)
  else do
    let n ← incId k.acknowledged
    if id = n then return (true, ⟨k.keys.setNext id (DH.Keypair.generate G fresh), id⟩)
    else .err .protocolViolation

/-- `PublicKeyRotation::new`, src/keymanager.rs 220-226. -/
def PublicKeyRotation.new (id : UInt32) (key : Nat) : Res PublicKeyRotation := do
  Res.assert (id != 0)
  Res.assert (key != 0)
  return ⟨(Slots.mk 0 0).set id key, id⟩

/-- `PublicKeyRotation::current`, src/keymanager.rs 228-230. -/
def PublicKeyRotation.current (k : PublicKeyRotation) : UInt32 × Nat := (k.id, k.keys.get k.id)

/-- `PublicKeyRotation::select`, src/keymanager.rs 232-244; `self.id` is never 0, otherwise `self.id - 1`
panics. -/
def PublicKeyRotation.select (k : PublicKeyRotation) (id : UInt32) : Res Nat := do
  Res.assert (id != 0)
  Res.assert (k.id != 0)
  if id > 0 ∧ k.id - 1 = id ∨ k.id = id then return k.keys.get id else .err .protocolViolation

/-- `PublicKeyRotation::register`, src/keymanager.rs 248-269. -/
def PublicKeyRotation.register (k : PublicKeyRotation) (id : UInt32) (key : Nat) :
    Res (Bool × PublicKeyRotation) := do
  Res.assert (id != 0)
  Res.assert (key != 0)
  if k.id = id then
    if k.keys.get k.id = key then return (false, k) else .err .protocolViolation
  else do
    let n ← incId k.id
    if n = id then return (true, ⟨k.keys.setNext k.id key, id⟩) else .err .protocolViolation

/-! ## Key manager -/

/-- `KeyManager`, src/keymanager.rs 14-23. -/
structure KeyManager where
  ours : KeypairRotation
  theirs : PublicKeyRotation
  ourCtr : Bytes
  theirCtr : Bytes
  usedMacs : List Bytes
  oldMacs : Bytes
  deriving DecidableEq, Repr

namespace KeyManager

/-- `KeyManager::new`, src/keymanager.rs 32-47. -/
def new (G : DHGroup) (ourId : UInt32) (ours : DH.Keypair) (theirId : UInt32) (theirs : Nat) (r : Rand) :
    Res KeyManager := do
  Res.assert (ourId != 0)
  Res.assert (theirId != 0)
  let o ← KeypairRotation.new G ourId ours r
  let t ← PublicKeyRotation.new theirId theirs
  return ⟨o, t, COUNTER_INITIAL, COUNTER_INITIAL, [], []⟩

/-- `reveal_used_mac_keys`, src/keymanager.rs 107-113.  The MACs are 20-byte arrays, so the assertion on
the length cannot fail. -/
def revealUsed (k : KeyManager) : KeyManager :=
  { k with oldMacs := k.oldMacs ++ k.usedMacs.flatten, usedMacs := [] }

/-- `reset_counters`, src/keymanager.rs 122-125. -/
def resetCounters (k : KeyManager) : KeyManager :=
  { k with ourCtr := COUNTER_INITIAL, theirCtr := COUNTER_INITIAL }

/-- What both rotations do when a new key was met, src/keymanager.rs 63-64, 85-86. -/
def rotated (k : KeyManager) : KeyManager := k.revealUsed.resetCounters

/-- `acknowledge_ours`, src/keymanager.rs 61-67. -/
def acknowledgeOurs (G : DHGroup) (id : UInt32) (fresh : Bytes) : StM KeyManager Unit := fun k =>
  match k.ours.acknowledge G id fresh with
  | .ok (true, o) => (.ok (), { k with ours := o }.rotated)
  | .ok (false, o) => (.ok (), { k with ours := o })
  | .err e => (.err e, k)
  | .panic => (.panic, k)

/-- `register_their_key`, src/keymanager.rs 83-89. -/
def registerTheirKey (id : UInt32) (key : Nat) : StM KeyManager Unit := fun k =>
  match k.theirs.register id key with
  | .ok (true, t) => (.ok (), { k with theirs := t }.rotated)
  | .ok (false, t) => (.ok (), { k with theirs := t })
  | .err e => (.err e, k)
  | .panic => (.panic, k)

/-- `current_shared_secret`, src/keymanager.rs 77-81. -/
def currentSharedSecret (G : DHGroup) (k : KeyManager) : Nat :=
  k.ours.current.2.sharedSecret G k.theirs.current.2

/-- `verify_counter`, src/keymanager.rs 92-94. -/
def verifyCounter (ctr : Bytes) : StM KeyManager Unit := fun k =>
  match counterVerify k.theirCtr ctr with
  | .ok c => (.ok (), { k with theirCtr := c })
  | .err e => (.err e, k)
  | .panic => (.panic, k)

/-- `take_counter`, src/keymanager.rs 97-99. -/
def takeCounter : StM KeyManager Bytes := fun k =>
  match counterTake k.ourCtr with
  | .ok c => (.ok c, { k with ourCtr := c })
  | .err e => (.err e, k)
  | .panic => (.panic, k)

/-- `register_used_mac_key`, src/keymanager.rs 101-105. -/
def registerUsedMac (mac : Bytes) : StM KeyManager Unit :=
  StM.modify fun k => if mac ∈ k.usedMacs then k else { k with usedMacs := k.usedMacs ++ [mac] }

/-- `get_reveal_macs`, src/keymanager.rs 115-120. -/
def getRevealMacs : StM KeyManager Bytes := fun k =>
  if k.oldMacs.length % 20 = 0 then (.ok k.oldMacs, { k with oldMacs := [] })
  else (.panic, { k with oldMacs := [] })

end KeyManager
end Otrr
