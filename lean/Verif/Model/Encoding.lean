import Verif.Basic
/-!
# Model of src/encoding.rs, src/utils.rs and src/instancetag.rs

The reader `OTRDecoder` is a function from the remaining bytes to a result and the bytes left after it.
When a read fails the Rust decoder is dropped by the caller (all callers use `?`), so the position
after a failure is not modelled.
The writer `OTREncoder` is modelled by the bytes each call appends.
-/

namespace Otrr

/-- `OTRDecoder`, src/encoding.rs 25, 43-46: a reader over the remaining bytes. -/
def Dec (α : Type) := Bytes → Res (α × Bytes)

namespace Dec

instance : Monad Dec where
  pure a := fun s => .ok (a, s)
  bind x f := fun s =>
    match x s with
    | .ok (a, s') => f a s'
    | .err e => .err e
    | .panic => .panic

/-- Lift a result that does not touch the buffer. -/
def lift (r : Res α) : Dec α := fun s =>
  match r with
  | .ok a => .ok (a, s)
  | .err e => .err e
  | .panic => .panic

/-- `return Err(e)`. -/
def fail (e : OTRError) : Dec α := fun _ => .err e

@[simp] theorem pure_run (a : α) (s : Bytes) : (pure a : Dec α) s = .ok (a, s) := rfl

theorem bind_run (x : Dec α) (f : α → Dec β) (s : Bytes) :
    (x >>= f) s = match x s with
      | .ok (a, s') => f a s'
      | .err e => .err e
      | .panic => .panic := rfl

@[simp] theorem lift_run_ok (a : α) (s : Bytes) : Dec.lift (.ok a) s = .ok (a, s) := rfl
@[simp] theorem fail_run (e : OTRError) (s : Bytes) : (Dec.fail e : Dec α) s = .err e := rfl

end Dec

/-! ## src/utils.rs -/

/-- `utils::bytes::all_zero`, src/utils.rs 29-36. -/
def allZero (data : Bytes) : Bool := data.all (· == 0)

/-- `utils::bytes::any_nonzero`, src/utils.rs 24-26. -/
def anyNonzero (data : Bytes) : Bool := !allZero data

/-- `utils::bytes::drop_by_value`, src/utils.rs 39-45. -/
def dropByValue (data : Bytes) (v : UInt8) : Bytes := data.filter (· != v)

/-- The loop of `utils::bytes::cmp`, src/utils.rs 58-66, for slices of equal length. -/
def cmpBytesLoop : Bytes → Bytes → Ordering
  | a :: as, b :: bs => if a < b then .lt else if b < a then .gt else cmpBytesLoop as bs
  | _, _ => .eq

/-- `utils::bytes::cmp`, src/utils.rs 53-67.  The pointer-equality assertion is not modelled
(no caller passes the same slice twice); the length assertion is. -/
def cmpBytes (a b : Bytes) : Res Ordering :=
  if a.length = b.length then .ok (cmpBytesLoop a b) else .panic

/-- `utils::biguint::to_bytes_be_fixed::<n>`, src/utils.rs 174-185; panics if `v` does not fit. -/
def toBytesBEFixed (n v : Nat) : Res Bytes :=
  if (natToBE v).length ≤ n then
    .ok (List.replicate (n - (natToBE v).length) 0 ++ natToBE v)
  else .panic

/-- `utils::bigint::to_bytes_le_fixed::<n>`, src/utils.rs 139-145, 187-193; panics if `v` does not fit. -/
def toBytesLEFixed (n v : Nat) : Res Bytes :=
  if (natToLE v).length ≤ n then
    .ok (natToLE v ++ List.replicate (n - (natToLE v).length) 0)
  else .panic

/-! ## src/instancetag.rs -/

/-- `INSTANCE_ZERO`, src/instancetag.rs 5. -/
def INSTANCE_ZERO : UInt32 := 0

/-- `INSTANCE_MIN_VALID`, src/instancetag.rs 6. -/
def INSTANCE_MIN_VALID : UInt32 := 0x100

/-- `instancetag::verify`, src/instancetag.rs 23-29. -/
def verifyTag (tag : UInt32) : Res UInt32 :=
  if tag > INSTANCE_ZERO ∧ tag < INSTANCE_MIN_VALID then .err .protocolViolation else .ok tag

/-! ## Reading -/

/-- `read_u8`, src/encoding.rs 53-61. -/
def readU8 : Dec UInt8 := fun s =>
  match s with
  | [] => .err .incompleteMessage
  | b :: rest => .ok (b, rest)

/-- `read::<N>`, src/encoding.rs 257-266. -/
def readN (n : Nat) : Dec Bytes := fun s =>
  if s.length < n then .err .incompleteMessage else .ok (s.take n, s.drop n)

/-- `read_u16`, src/encoding.rs 64-72. -/
def readU16 : Dec UInt16 := do
  let b ← readN 2
  pure (UInt16.ofNat (beNat b))

/-- `read_u16_le`, src/encoding.rs 75-83. -/
def readU16LE : Dec UInt16 := do
  let b ← readN 2
  pure (UInt16.ofNat (leNat b))

/-- `read_u32`, src/encoding.rs 86-97. -/
def readU32 : Dec UInt32 := do
  let b ← readN 4
  pure (UInt32.ofNat (beNat b))

/-- `read_i64`, src/encoding.rs 99-102.  The signed value is kept as its two's complement bits. -/
def readI64 : Dec UInt64 := do
  let b ← readN 8
  pure (UInt64.ofNat (beNat b))

/-- `read_instance_tag`, src/encoding.rs 104-107. -/
def readInstanceTag : Dec UInt32 := do
  let v ← readU32
  Dec.lift (verifyTag v)

/-- `read_data`, src/encoding.rs 110-119. -/
def readData : Dec Bytes := do
  let len ← readU32
  readN len.toNat

/-- `read_mpi`, src/encoding.rs 122-135. -/
def readMpi : Dec Nat := do
  let len ← readU32
  if len = 0 then pure 0
  else do
    let b ← readN len.toNat
    pure (beNat b)

/-- The loop of `read_mpi_sequence`, src/encoding.rs 142-144. -/
def readMpis : Nat → Dec (List Nat)
  | 0 => pure []
  | n + 1 => do
    let m ← readMpi
    let ms ← readMpis n
    pure (m :: ms)

/-- `read_mpi_sequence`, src/encoding.rs 138-146. -/
def readMpiSequence : Dec (List Nat) := do
  let len ← readU32
  readMpis len.toNat

/-- `read_ctr`, src/encoding.rs 149-155; `CTR_LEN` = 8 (444). -/
def readCtr : Dec Bytes := readN 8

/-- `read_mac`, src/encoding.rs 158-164; `MAC_LEN` = 20 (446). -/
def readMac : Dec Bytes := readN 20

/-- `read_mac4`, src/encoding.rs 246-249; `MAC4_LEN` = 64 (449). -/
def readMac4 : Dec Bytes := readN 64

/-- `read_tlv`, src/encoding.rs 199-209. -/
def readTlv : Dec TLV := do
  let typ ← readU16
  let len ← readU16
  let v ← readN len.toNat
  pure ⟨typ, v⟩

/-- The loop of `read_tlvs`, src/encoding.rs 189-196, with fuel.  Each round that succeeds consumes
at least four bytes, so `s.length` rounds always suffice (`readTlvs_fuel` in Lemmas/Encoding). -/
def readTlvsFuel : Nat → Dec (List TLV)
  | 0 => fun s => if s = [] then .ok ([], []) else .err .incompleteMessage
  | n + 1 => fun s =>
    if s = [] then .ok ([], [])
    else (do
      let t ← readTlv
      let ts ← readTlvsFuel n
      pure (t :: ts)) s

/-- `read_tlvs`, src/encoding.rs 189-196. -/
def readTlvs : Dec (List TLV) := fun s => readTlvsFuel s.length s

/-- `read_bytes_null_terminated`, src/encoding.rs 215-227. -/
def readNullTerminated : Dec Bytes := fun s =>
  .ok (s.takeWhile (· != 0), (s.dropWhile (· != 0)).drop 1)

/-- `done`, src/encoding.rs 276-282. -/
def decDone : Dec Unit := fun s =>
  if s = [] then .ok ((), []) else .err .protocolViolation

/-- Run a decoder on a complete buffer, dropping what is left (`OTRDecoder` going out of scope). -/
def runDec (d : Dec α) (s : Bytes) : Res α :=
  match d s with
  | .ok (a, _) => .ok a
  | .err e => .err e
  | .panic => .panic

/-! ## Writing -/

/-- `write_u8`, src/encoding.rs 309-312. -/
def wU8 (v : UInt8) : Bytes := [v]

/-- `write_u16`, src/encoding.rs 314-319. -/
def wU16 (v : UInt16) : Bytes := beBytes 2 v.toNat

/-- `write_u16_le`, src/encoding.rs 321-326. -/
def wU16LE (v : UInt16) : Bytes := leBytes 2 v.toNat

/-- `write_u32`, src/encoding.rs 328-335. -/
def wU32 (v : UInt32) : Bytes := beBytes 4 v.toNat

/-- `write_i64`, src/encoding.rs 337-341. -/
def wI64 (v : UInt64) : Bytes := beBytes 8 v.toNat

/-- `write_data`, src/encoding.rs 344-349.  The assertion that the length fits 32 bits is the
separate condition `dataOk`; the length is written `as u32`, i.e. modulo 2^32. -/
def wData (v : Bytes) : Bytes := wU32 (UInt32.ofNat v.length) ++ v

/-- The assertion of `write_data`, src/encoding.rs 345. -/
def dataOk (v : Bytes) : Bool := v.length < 2 ^ 32

/-- `write_mpi`, src/encoding.rs 362-376.  The length is written `as u32`, i.e. modulo 2^32. -/
def wMpi (v : Nat) : Bytes :=
  if v = 0 then wU32 0
  else wU32 (UInt32.ofNat (natToBE v).length) ++ natToBE v

/-- `write_mpi_sequence`, src/encoding.rs 353-359. -/
def wMpiSequence (ms : List Nat) : Bytes :=
  wU32 (UInt32.ofNat ms.length) ++ (ms.map wMpi).flatten

/-- `write_tlv`, src/encoding.rs 397-402.  The length is written `as u16`. -/
def wTlv (t : TLV) : Bytes := wU16 t.typ ++ wU16 (UInt16.ofNat t.value.length) ++ t.value

/-- The assertion of `write_tlv`, src/encoding.rs 398. -/
def tlvOk (t : TLV) : Bool := t.value.length < 2 ^ 16

/-- `write_bytes_null_terminated`, src/encoding.rs 404-408. -/
def wNullTerminated (d : Bytes) : Bytes := d ++ [0]

end Otrr
