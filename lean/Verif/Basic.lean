/-!
# Basic vocabulary of the model

Result type with an explicit `panic`, byte strings, big and little endian numbers.
-/

namespace Otrr

/-- Byte strings: Rust `Vec<u8>`, `&[u8]` and `[u8; N]`. -/
abbrev Bytes := List UInt8

/-- `AKEError`, src/ake.rs 617-632.  Simplification: nested error values and texts are dropped. -/
inductive AKEError
  | cryptographicViolation
  | messageIgnored
  | dataProcessing
  | completed
  | incorrectState
  deriving DecidableEq, Repr

/-- `TLV(pub TLVType, pub Vec<u8>)`, src/encoding.rs 452-454. -/
structure TLV where
  typ : UInt16
  value : Bytes
  deriving DecidableEq, Repr, Inhabited

/-- `OTRError`, src/lib.rs 109-146.  Simplification: the `&'static str` texts are dropped. -/
inductive OTRError
  | protocolViolation
  | incompleteMessage
  | unreadableMessage (tag : UInt32)
  | messageForOtherInstance
  | unknownInstance (tag : UInt32)
  | unsupportedVersion (v : UInt16)
  | incorrectState
  | cryptographicViolation
  | policyRestriction
  | authenticationError (e : AKEError)
  | smpInProgress
  | smpSuccess (tlv : Option TLV)
  | smpFailed (tlv : Option TLV)
  | smpAborted (send : Bool)
  | userError
  deriving DecidableEq, Repr

/-- Outcome of a Rust call: `Ok`, `Err`, or a panic (assertion, `unwrap`, overflow, ...). -/
inductive Res (α : Type u) where
  | ok (a : α)
  | err (e : OTRError)
  | panic
  deriving DecidableEq, Repr

namespace Res

/-- Sequencing with `?`: errors and panics stop the computation. -/
@[inline] def bind (x : Res α) (f : α → Res β) : Res β :=
  match x with
  | ok a => f a
  | err e => err e
  | panic => panic

instance : Monad Res where
  pure := Res.ok
  bind := Res.bind

@[simp] theorem pure_def (a : α) : (pure a : Res α) = ok a := rfl
@[simp] theorem bind_ok (a : α) (f : α → Res β) : (ok a >>= f) = f a := rfl
@[simp] theorem bind_err (e : OTRError) (f : α → Res β) : ((err e : Res α) >>= f) = err e := rfl
@[simp] theorem bind_panic (f : α → Res β) : ((panic : Res α) >>= f) = panic := rfl

/-- `map_err`-like replacement of the error value. -/
def mapErr (x : Res α) (e : OTRError) : Res α :=
  match x with
  | ok a => ok a
  | err _ => err e
  | panic => panic

/-- `assert!(c)`. -/
def assert (c : Bool) : Res Unit := if c then ok () else panic

/-- `if !c { return Err(e) }`. -/
def guard (c : Bool) (e : OTRError) : Res Unit := if c then ok () else err e

/-- The call returned normally with a value. -/
def isOk : Res α → Bool
  | ok _ => true
  | _ => false

@[simp] theorem bind_eq_ok {x : Res α} {f : α → Res β} {b : β} :
    (x >>= f) = ok b ↔ ∃ a, x = ok a ∧ f a = ok b := by
  cases x <;> simp

@[simp] theorem bind_eq_panic {x : Res α} {f : α → Res β} :
    (x >>= f) = panic ↔ x = panic ∨ ∃ a, x = ok a ∧ f a = panic := by
  cases x <;> simp

@[simp] theorem guard_eq_ok {c : Bool} {e : OTRError} {u : Unit} :
    guard c e = ok u ↔ c = true := by
  cases c <;> simp [guard]

@[simp] theorem guard_ne_panic {c : Bool} {e : OTRError} : guard c e ≠ panic := by
  cases c <;> simp [guard]

@[simp] theorem assert_eq_ok {c : Bool} {u : Unit} : assert c = ok u ↔ c = true := by
  cases c <;> simp [assert]

@[simp] theorem assert_eq_panic {c : Bool} : assert c = panic ↔ c = false := by
  cases c <;> simp [assert]

@[simp] theorem mapErr_eq_ok {x : Res α} {e : OTRError} {a : α} : x.mapErr e = ok a ↔ x = ok a := by
  cases x <;> simp [mapErr]

@[simp] theorem mapErr_eq_panic {x : Res α} {e : OTRError} : x.mapErr e = panic ↔ x = panic := by
  cases x <;> simp [mapErr]

end Res

/-! ## Numbers as byte strings -/

/-- Value of a big-endian byte string (`BigUint::from_bytes_be`, `uN::from_be_bytes`). -/
def beNat (bs : Bytes) : Nat := bs.foldl (fun acc b => acc * 256 + b.toNat) 0

/-- Value of a little-endian byte string (`BigInt::from_bytes_le(Sign::Plus, _)`). -/
def leNat : Bytes → Nat
  | [] => 0
  | b :: bs => b.toNat + 256 * leNat bs

/-- Little-endian digits of `v`, exactly `n` bytes (`v` is reduced modulo `256 ^ n`). -/
def leBytes : Nat → Nat → Bytes
  | 0, _ => []
  | n + 1, v => UInt8.ofNat v :: leBytes n (v / 256)

/-- Big-endian digits of `v`, exactly `n` bytes (`uN::to_be_bytes`). -/
def beBytes (n v : Nat) : Bytes := (leBytes n v).reverse

/-- Number of bytes of the minimal encoding of `v`; 0 for 0. -/
def byteLen (v : Nat) : Nat := if h : v = 0 then 0 else byteLen (v / 256) + 1
  decreasing_by exact Nat.div_lt_self (Nat.pos_of_ne_zero h) (by decide)

/-- `BigUint::to_bytes_be`: minimal big-endian encoding; the single byte 0 for 0. -/
def natToBE (v : Nat) : Bytes := if v = 0 then [0] else beBytes (byteLen v) v

/-- `BigUint::to_bytes_le`: minimal little-endian encoding; the single byte 0 for 0. -/
def natToLE (v : Nat) : Bytes := if v = 0 then [0] else leBytes (byteLen v) v

/-- Text literals as bytes. -/
def str (s : String) : Bytes := s.toUTF8.toList

end Otrr
