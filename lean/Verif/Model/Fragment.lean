import Verif.Model.Encoding
/-!
# Model of src/fragment.rs

The two regular expressions are modelled by hand-written matchers.  Each delimiter is outside the
character class before it, so a greedy run followed by its delimiter is the only candidate match and no
backtracking is needed.  The expressions are not anchored: the leftmost offset that matches is taken.
`\d` is the Unicode class Nd (the `regex` crate has Unicode support on by default): the code points
above 127 it contains are an arbitrary predicate `nd`.
-/

namespace Otrr

/-- `Version`, src/lib.rs 160-169. -/
inductive Version
  | none
  | v3
  | v4
  | unsupported (v : UInt16)
  deriving DecidableEq, Repr, Inhabited

/-- `Fragment`, src/fragment.rs 202-210.  `identifier` has 4 bytes. -/
structure Fragment where
  version : Version
  identifier : Bytes
  sender : UInt32
  receiver : UInt32
  part : UInt16
  total : UInt16
  payload : Bytes
  deriving DecidableEq, Repr

/-- `FragmentError`, src/fragment.rs 434-443. -/
inductive FragmentError
  | invalidData
  | incompleteResult
  | unexpectedFragment
  deriving DecidableEq, Repr

/-! ## Character classes -/

/-- `[0-9]`. -/
def isDigit (b : UInt8) : Bool := 0x30 ≤ b && b ≤ 0x39

/-- `[0-9a-fA-F]`. -/
def isHex (b : UInt8) : Bool := isDigit b || (0x61 ≤ b && b ≤ 0x66) || (0x41 ≤ b && b ≤ 0x46)

/-- `[A-Za-z0-9\+/=\?:\.]`. -/
def isPayloadChar (b : UInt8) : Bool :=
  isDigit b || (0x41 ≤ b && b ≤ 0x5a) || (0x61 ≤ b && b ≤ 0x7a) || b == 0x2b || b == 0x2f ||
    b == 0x3d || b == 0x3f || b == 0x3a || b == 0x2e

/-- UTF-8 continuation byte. -/
def isCont (b : UInt8) : Bool := 0x80 ≤ b && b ≤ 0xbf

/-- One `\d`: an ASCII digit, or the UTF-8 form of a code point above 127 in the class `nd`.
Returns the bytes matched and the rest. -/
def digitTok (nd : Nat → Bool) : Bytes → Option (Bytes × Bytes)
  | [] => .none
  | b0 :: r0 =>
    if isDigit b0 then some ([b0], r0)
    else match r0 with
      | [] => .none
      | b1 :: r1 =>
        if 0xc2 ≤ b0 && b0 ≤ 0xdf && isCont b1 &&
            nd ((b0.toNat - 0xc0) * 64 + (b1.toNat - 0x80)) then some ([b0, b1], r1)
        else match r1 with
          | [] => .none
          | b2 :: r2 =>
            let cp3 := ((b0.toNat - 0xe0) * 64 + (b1.toNat - 0x80)) * 64 + (b2.toNat - 0x80)
            if 0xe0 ≤ b0 && b0 ≤ 0xef && isCont b1 && isCont b2 && 0x800 ≤ cp3 && nd cp3 then
              some ([b0, b1, b2], r2)
            else match r2 with
              | [] => .none
              | b3 :: r3 =>
                let cp4 := (((b0.toNat - 0xf0) * 64 + (b1.toNat - 0x80)) * 64 + (b2.toNat - 0x80)) * 64
                  + (b3.toNat - 0x80)
                if 0xf0 ≤ b0 && b0 ≤ 0xf4 && isCont b1 && isCont b2 && isCont b3 && 0x10000 ≤ cp4 &&
                    nd cp4 then some ([b0, b1, b2, b3], r3)
                else .none

/-- Greedy run of at most `n` digits: the bytes matched and the rest. -/
def digitRun (nd : Nat → Bool) : Nat → Bytes → Bytes × Bytes
  | 0, s => ([], s)
  | n + 1, s =>
    match digitTok nd s with
    | .none => ([], s)
    | some (t, r) => let (ts, r') := digitRun nd n r; (t ++ ts, r')

/-- Strip a literal. -/
def lit (p s : Bytes) : Option Bytes := if p.isPrefixOf s then some (s.drop p.length) else .none

/-- `([0-9a-fA-F]{lo,hi})` followed by the delimiter `d`. -/
def hexField (lo hi : Nat) (d : UInt8) (s : Bytes) : Option (Bytes × Bytes) :=
  let run := s.takeWhile isHex
  if lo ≤ run.length && run.length ≤ hi then (lit [d] (s.drop run.length)).map (run, ·) else .none

/-- `(\d{1,5}),`. -/
def numField (nd : Nat → Bool) (s : Bytes) : Option (Bytes × Bytes) :=
  let (run, r) := digitRun nd 5 s
  if run = [] then .none else (lit [0x2c] r).map (run, ·)

/-- `([A-Za-z0-9\+/=\?:\.]+),`. -/
def payloadField (s : Bytes) : Option (Bytes × Bytes) :=
  let run := s.takeWhile isPayloadChar
  if run = [] then .none else (lit [0x2c] (s.drop run.length)).map (run, ·)

/-- Leftmost match: try every offset from the start. -/
def firstMatch (m : Bytes → Option α) : Bytes → Option α
  | [] => m []
  | b :: r => match m (b :: r) with
    | some a => some a
    | .none => firstMatch m r

/-- `?OTR|`, src/fragment.rs 15. -/
def OTR_FRAGMENT_V3_PREFIX : Bytes := [0x3f, 0x4f, 0x54, 0x52, 0x7c]

/-- `?OTR,`, src/fragment.rs 14. -/
def OTR_FRAGMENT_V2_PREFIX : Bytes := [0x3f, 0x4f, 0x54, 0x52, 0x2c]

/-- `,`, src/fragment.rs 16. -/
def OTR_FRAGMENT_SUFFIX : Bytes := [0x2c]

/-- The captures of a fragment pattern. -/
structure FragCaptures where
  ident : Bytes
  sender : Bytes
  receiver : Bytes
  part : Bytes
  total : Bytes
  payload : Bytes
  deriving DecidableEq, Repr

/-- The part common to both patterns, after the prefix and the identifier. -/
def fragTail (nd : Nat → Bool) (ident s : Bytes) : Option FragCaptures := do
  let (sender, s) ← hexField 1 8 0x7c s
  let (receiver, s) ← hexField 1 8 0x2c s
  let (part, s) ← numField nd s
  let (total, s) ← numField nd s
  let (payload, _) ← payloadField s
  return ⟨ident, sender, receiver, part, total, payload⟩

/-- `FRAGMENT_V3_PATTERN` at one offset, src/fragment.rs 30-35. -/
def fragV3At (nd : Nat → Bool) (s : Bytes) : Option FragCaptures := do
  let s ← lit OTR_FRAGMENT_V3_PREFIX s
  fragTail nd [] s

/-- `FRAGMENT_V4_PATTERN` at one offset, src/fragment.rs 40-45. -/
def fragV4At (nd : Nat → Bool) (s : Bytes) : Option FragCaptures := do
  let s ← lit OTR_FRAGMENT_V3_PREFIX s
  let (ident, s) ← hexField 8 8 0x7c s
  fragTail nd ident s

/-- `match_fragment`, src/fragment.rs 49-52. -/
def matchFragment (content : Bytes) : Bool :=
  (OTR_FRAGMENT_V2_PREFIX.isPrefixOf content || OTR_FRAGMENT_V3_PREFIX.isPrefixOf content) &&
    OTR_FRAGMENT_SUFFIX.isSuffixOf content

/-- Value of a hexadecimal digit. -/
def hexVal (b : UInt8) : Nat :=
  if isDigit b then b.toNat - 0x30 else if 0x61 ≤ b then b.toNat - 0x61 + 10 else b.toNat - 0x41 + 10

/-- Value of a hexadecimal run.  `hex::decode(as_sized_hexarray::<8>(..))` followed by
`from_4byte_be`, src/fragment.rs 66-73, 86-89, 107-108, 115-119; the runs have 1 to 8 digits, so
padding with zeroes and decoding cannot fail. -/
def hexNat (s : Bytes) : Nat := s.foldl (fun a b => a * 16 + hexVal b) 0

/-- Value of a run of ASCII digits. -/
def decNat (s : Bytes) : Nat := s.foldl (fun a b => a * 10 + (b.toNat - 0x30)) 0

/-- `from_utf8(..).unwrap().parse::<u16>().unwrap()`, src/fragment.rs 74-81, 90-97: panics on
non-ASCII digits and on values above 65535. -/
def parseU16 (s : Bytes) : Res UInt16 :=
  if s.all isDigit && decNat s < 65536 then .ok (UInt16.ofNat (decNat s)) else .panic

/-- The captured fields become a fragment, src/fragment.rs 64-112.  `none` if a tag is illegal. -/
def fragFromCaptures (v : Version) (c : FragCaptures) : Res (Option Fragment) := do
  let part ← parseU16 c.part
  let total ← parseU16 c.total
  let ident := if v = .v4 then beBytes 4 (hexNat c.ident) else [0, 0, 0, 0]
  match verifyTag (UInt32.ofNat (hexNat c.sender)), verifyTag (UInt32.ofNat (hexNat c.receiver)) with
  | .ok s, .ok r => .ok (some ⟨v, ident, s, r, part, total, c.payload⟩)
  | _, _ => .ok Option.none

/-- `parse`, src/fragment.rs 56-113. -/
def parseFragment (nd : Nat → Bool) (content : Bytes) : Res (Option Fragment) :=
  match firstMatch (fragV4At nd) content with
  | some c => fragFromCaptures .v4 c
  | Option.none =>
    match firstMatch (fragV3At nd) content with
    | some c => fragFromCaptures .v3 c
    | Option.none => .ok Option.none

/-- `MAX_FRAGMENT_SIZE`, src/fragment.rs 356. -/
def MAX_FRAGMENT_SIZE : Nat := 250 * 1024

/-- `verify`, src/fragment.rs 122-140; the only error is `InvalidData`. -/
def verifyFragment (f : Fragment) : Bool :=
  !((f.version = .v3 && f.identifier != [0, 0, 0, 0]) || f.total == 0 || f.part == 0 ||
      f.part > f.total || f.payload == [] || f.payload.length > MAX_FRAGMENT_SIZE)

/-! ## Fragmenting -/

/-- The slices `content[pos..min(pos + k, len)]` for `pos` in `(0..len).step_by(k)`,
src/fragment.rs 187-188.  `fuel` bounds the number of slices; `content.length` is always enough. -/
def slices (k : Nat) : Nat → Bytes → List Bytes
  | 0, _ => []
  | fuel + 1, s => if s = [] then [] else s.take k :: slices k fuel (s.drop k)

/-- The loop of `fragment`, src/fragment.rs 186-198. -/
def numberFragments (v : Version) (ident : Bytes) (sender receiver : UInt32) (total : Nat) :
    Nat → List Bytes → List Fragment
  | _, [] => []
  | i, p :: ps =>
    ⟨v, ident, sender, receiver, UInt16.ofNat (i + 1), UInt16.ofNat total, p⟩ ::
      numberFragments v ident sender receiver total (i + 1) ps

/-- Header sizes, src/fragment.rs 159-160. -/
def headerSize : Version → Nat
  | .v3 => 36
  | .v4 => 45
  | _ => 0

/-- `fragment`, src/fragment.rs 152-200.  `rnd` are the four random bytes used as OTRv4 identifier. -/
def fragmentContent (rnd : Bytes) (maxSize : Nat) (v : Version) (sender receiver : UInt32)
    (content : Bytes) : Res (List Fragment) := do
  Res.assert (v != .v3 || maxSize > 36)
  Res.assert (v != .v4 || maxSize > 45)
  Res.assert (content.length > maxSize)
  let (size, ident) ← (match v with
    | .v3 => Res.ok (maxSize - 36, [0, 0, 0, 0])
    | .v4 => Res.ok (maxSize - 45, rnd)
    | _ => Res.panic : Res (Nat × Bytes))
  let count := content.length / size + (if content.length % size = 0 then 0 else 1)
  Res.assert (count < 65536)
  return numberFragments v ident sender receiver count 0 (slices size content.length content)

/-- Lower-case hexadecimal digit. -/
def hexChar (n : Nat) : UInt8 := UInt8.ofNat (if n < 10 then 0x30 + n else 0x61 + (n - 10))

/-- `{:0nx}`: at least `n` digits; the values formatted here always fit `n` digits. -/
def hexFixed : Nat → Nat → Bytes
  | 0, _ => []
  | n + 1, v => hexFixed n (v / 16) ++ [hexChar (v % 16)]

/-- `{:0n}` decimal; the values formatted here always fit `n` digits. -/
def decFixed : Nat → Nat → Bytes
  | 0, _ => []
  | n + 1, v => decFixed n (v / 10) ++ [UInt8.ofNat (0x30 + v % 10)]

/-- `OTREncodable for Fragment`, src/fragment.rs 226-265.  Logging is not modelled. -/
def encodeFragment (f : Fragment) : Res Bytes := do
  Res.assert (f.version = .v3 || f.version = .v4)
  Res.assert (verifyTag f.sender).isOk
  Res.assert (f.sender != 0)
  Res.assert (verifyTag f.receiver).isOk
  Res.assert (f.part != 0)
  Res.assert (f.total != 0)
  Res.assert (f.part ≤ f.total)
  Res.assert (f.payload != [])
  let ident := if f.version = .v4 then (f.identifier.map fun b => hexFixed 2 b.toNat).flatten ++ [0x7c] else []
  return OTR_FRAGMENT_V3_PREFIX ++ ident ++ hexFixed 8 f.sender.toNat ++ [0x7c] ++
    hexFixed 8 f.receiver.toNat ++ [0x2c] ++ decFixed 5 f.part.toNat ++ [0x2c] ++
    decFixed 5 f.total.toNat ++ [0x2c] ++ f.payload ++ OTR_FRAGMENT_SUFFIX

/-! ## Reassembly -/

/-- Outcome of `assemble`: `Result<Vec<u8>, FragmentError>` or a panic. -/
inductive AsmRes
  | ok (content : Bytes)
  | err (e : FragmentError)
  | panic
  deriving DecidableEq, Repr

/-- `InOrderAssembler`, src/fragment.rs 299-312. -/
structure InOrder where
  total : UInt16
  last : UInt16
  content : Bytes
  deriving DecidableEq, Repr

/-- `InOrderAssembler::new`, src/fragment.rs 306-312. -/
def InOrder.new : InOrder := ⟨0, 0, []⟩

/-- `InOrderAssembler::assemble`, src/fragment.rs 314-335.  `self.last + 1` overflows at 65535. -/
def InOrder.assemble (a : InOrder) (f : Fragment) : AsmRes × InOrder :=
  if !verifyFragment f then (.err .invalidData, a)
  else
    let finish (a : InOrder) : AsmRes × InOrder :=
      if a.last = a.total then (.ok a.content, { a with content := [] })
      else (.err .incompleteResult, a)
    if f.part = 1 then finish ⟨f.total, 1, f.payload⟩
    else if f.total = a.total then
      if a.last = 65535 then (.panic, a)
      else if f.part = a.last + 1 then finish { a with last := f.part, content := a.content ++ f.payload }
      else (.err .unexpectedFragment, InOrder.new)
    else (.err .unexpectedFragment, InOrder.new)

/-- `Assembly`, src/fragment.rs 344-347. -/
structure Assembly where
  tick : UInt32
  parts : List Bytes
  deriving DecidableEq, Repr

/-- `UnorderedAssembler`, src/fragment.rs 349-352.  The `HashMap` is an association list in which no
key occurs twice. -/
structure Unordered where
  tick : UInt32
  store : List (Bytes × Assembly)
  deriving DecidableEq, Repr

/-- `UnorderedAssembler::new`, src/fragment.rs 361-366. -/
def Unordered.new : Unordered := ⟨0, []⟩

/-- `MAX_MESSAGES`, src/fragment.rs 354. -/
def MAX_MESSAGES : Nat := 100

/-- `MAX_MESSAGE_SIZE`, src/fragment.rs 355. -/
def MAX_MESSAGE_SIZE : Nat := 100 * 1024 * 1024

/-- `HashMap::get`. -/
def lookup [DecidableEq κ] (m : List (κ × α)) (k : κ) : Option α :=
  match m with
  | [] => .none
  | (k', a) :: r => if k' = k then some a else lookup r k

/-- `HashMap::remove`. -/
def eraseKey [DecidableEq κ] (m : List (κ × α)) (k : κ) : List (κ × α) := m.filter fun e => e.1 ≠ k

/-- `HashMap::insert`. -/
def insertKey [DecidableEq κ] (m : List (κ × α)) (k : κ) (a : α) : List (κ × α) :=
  match m with
  | [] => [(k, a)]
  | (k', a') :: r => if k' = k then (k, a) :: r else (k', a') :: insertKey r k a

/-- `iter().reduce(|acc, e| if acc.1.tick < e.1.tick { acc } else { e })`, src/fragment.rs 379-384. -/
def eldest : List (Bytes × Assembly) → Option (Bytes × Assembly)
  | [] => .none
  | e :: r => some (r.foldl (fun acc e => if acc.2.tick < e.2.tick then acc else e) e)

/-- The eviction loop, src/fragment.rs 376-386, with fuel (the number of entries always suffices, as
each round removes one). -/
def evict (id : Bytes) : Nat → List (Bytes × Assembly) → List (Bytes × Assembly)
  | 0, m => m
  | fuel + 1, m =>
    if (lookup m id).isNone && MAX_MESSAGES ≤ m.length then
      match eldest m with
      | some e => evict id fuel (eraseKey m e.1)
      | .none => m
    else m

/-- `UnorderedAssembler::assemble`, src/fragment.rs 373-431.  `parts.capacity()` (400) is modelled as
the number of parts: `vec![Vec::new(); n]` allocates exactly `n` slots and is never pushed to. -/
def Unordered.assemble (a : Unordered) (f : Fragment) : AsmRes × Unordered :=
  if !verifyFragment f then (.err .invalidData, a)
  else
    let m := evict f.identifier a.store.length a.store
    if MAX_MESSAGES < m.length then (.panic, ⟨a.tick, m⟩)
    else
      let entry := (lookup m f.identifier).getD ⟨0, List.replicate f.total.toNat []⟩
      let entry := { entry with tick := a.tick }
      if a.tick = 0xffffffff then (.panic, ⟨a.tick, insertKey m f.identifier entry⟩)
      else
        let tick := a.tick + 1
        let m := insertKey m f.identifier entry
        if entry.parts.length ≠ f.total.toNat then (.err .invalidData, ⟨tick, m⟩)
        else
          let idx := f.part.toNat - 1
          match entry.parts[idx]? with
          | .none => (.panic, ⟨tick, m⟩)
          | some p =>
            if p ≠ [] then (.err .unexpectedFragment, ⟨tick, m⟩)
            else
              let parts := entry.parts.set idx f.payload
              let m := insertKey m f.identifier { entry with parts := parts }
              if (parts.map List.length).sum > MAX_MESSAGE_SIZE && parts.any (· == []) then
                (.err .incompleteResult, ⟨tick, eraseKey m f.identifier⟩)
              else if parts.any (· == []) then (.err .incompleteResult, ⟨tick, m⟩)
              else (.ok parts.flatten, ⟨tick, eraseKey m f.identifier⟩)

/-- `Assembler`, src/fragment.rs 267-278. -/
structure Assembler where
  inorder : InOrder
  unordered : Unordered
  deriving DecidableEq, Repr

/-- `Assembler::new`, src/fragment.rs 273-278. -/
def Assembler.new : Assembler := ⟨.new, .new⟩

/-- `Assembler::assemble`, src/fragment.rs 280-288. -/
def Assembler.assemble (a : Assembler) (f : Fragment) : AsmRes × Assembler :=
  match f.version with
  | .v3 => let (r, i) := a.inorder.assemble f; (r, { a with inorder := i })
  | .v4 => let (r, u) := a.unordered.assemble f; (r, { a with unordered := u })
  | _ => (.panic, a)

/-- `Assembler::cleanup`, src/fragment.rs 290-296, 337-341, 368-371 (`todo!` for OTRv4). -/
def Assembler.cleanup (a : Assembler) : Version → Res Assembler
  | .v3 => .ok { a with inorder := .new }
  | _ => .panic

end Otrr
