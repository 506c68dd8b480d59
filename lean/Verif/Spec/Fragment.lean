import Verif.Model.Fragment
/-! Specification vocabulary for fragments. -/

namespace Otrr.Spec

/-- ASCII text as bytes. -/
def ascii (s : String) : Bytes := s.toList.map fun c => UInt8.ofNat c.toNat

/-- The characters an encoded OTR message consists of. -/
def TextChar (b : UInt8) : Prop :=
  b ∈ ascii "ABCDEFGHIJKLMNOPQRSTUVWXYZabcdefghijklmnopqrstuvwxyz0123456789+/=?:."

/-- A fragment that may be put on the wire. -/
structure ValidFragment (f : Fragment) : Prop where
  version : (f.version = .v3 ∧ f.identifier = [0, 0, 0, 0]) ∨ (f.version = .v4 ∧ f.identifier.length = 4)
  sender : 0x100 ≤ f.sender.toNat
  receiver : f.receiver = 0 ∨ 0x100 ≤ f.receiver.toNat
  part : 1 ≤ f.part.toNat
  total : f.part.toNat ≤ f.total.toNat
  payload : f.payload ≠ []
  chars : ∀ b ∈ f.payload, TextChar b

/-- A fragment whose numbering and payload make sense: parts are numbered 1..total, the payload is
non-empty and at most 250 KiB, and only OTRv4 fragments have an identifier. -/
structure WellFormed (f : Fragment) : Prop where
  ident : f.version = .v3 → f.identifier = [0, 0, 0, 0]
  part : 1 ≤ f.part.toNat
  total : f.part.toNat ≤ f.total.toNat
  payload : f.payload ≠ []
  size : f.payload.length ≤ 250 * 1024

/-- Hand fragments to an assembler one after the other; collect the outcomes. -/
def feed (step : σ → Fragment → AsmRes × σ) : σ → List Fragment → List AsmRes × σ
  | s, [] => ([], s)
  | s, f :: fs =>
    let (r, s1) := step s f
    let (rs, s2) := feed step s1 fs
    (r :: rs, s2)

/-- `run` consists of the parts 1, 2, .. of a message of `n` parts. -/
def FirstParts (run : List Fragment) (n : Nat) : Prop :=
  ∀ i f, run[i]? = some f → f.part.toNat = i + 1 ∧ f.total.toNat = n

/-- The most recent fragments are exactly the parts 1..n of n, and their payloads make up `m`. -/
def JustCompleted (received : List Fragment) (m : Bytes) : Prop :=
  ∃ pre run n, received = pre ++ run ∧ run.length = n ∧ 0 < n ∧ FirstParts run n ∧
    m = (run.map (·.payload)).flatten

/-- Decimal value of a string of ASCII digits. -/
def decimal (w : Bytes) : Nat := w.foldl (fun acc b => acc * 10 + (b.toNat - 48)) 0

/-- The OTRv4 fragment with index `j` (part `j + 1`) of the message `pieces` with identifier `id`. -/
def fragmentOf (id : Bytes) (sender receiver : UInt32) (pieces : List Bytes) (j : Nat) : Fragment :=
  ⟨.v4, id, sender, receiver, UInt16.ofNat (j + 1), UInt16.ofNat pieces.length, pieces.getD j []⟩

/-- Everything the assembler of a peer can be: the state after some fragments. -/
def ReachableAssembler (a : Assembler) : Prop :=
  ∃ hist, a = (feed Assembler.assemble Assembler.new hist).2

/-- The fragments made for transport, for either version. -/
structure Fragmented (nd : Nat → Bool) (maxSize : Nat) (content : Bytes) (fs : List Fragment) : Prop where
  /-- There is more than one. -/
  count : 2 ≤ fs.length
  /-- They are numbered 1..n of n. -/
  numbered : ∀ j f, fs[j]? = some f → f.part.toNat = j + 1 ∧ f.total.toNat = fs.length
  /-- Each has a text that fits the transport and is parsed back to it. -/
  fits : ∀ f ∈ fs, ∃ text, encodeFragment f = .ok text ∧ text.length ≤ maxSize ∧
    matchFragment text = true ∧ parseFragment nd text = .ok (some f)
  /-- Together they carry the content. -/
  carries : (fs.map (·.payload)).flatten = content

/-- `f` is a well-formed fragment: part `j` of `n` of the OTRv4 message with identifier `id`. -/
def IsPart (id : Bytes) (n j : Nat) (f : Fragment) : Prop :=
  WellFormed f ∧ f.identifier = id ∧ f.total.toNat = n ∧ f.part.toNat = j

/-- `f` is the first part `j` of `n` of the message `id` among the fragments `received`. -/
def FirstPart (received : List Fragment) (id : Bytes) (n j : Nat) (f : Fragment) : Prop :=
  ∃ earlier later, received = earlier ++ f :: later ∧ IsPart id n j f ∧ ∀ g ∈ earlier, ¬ IsPart id n j g

/-- `m` is made of the parts 1..n of n of the message `id`: from some point on in `received`, the first
fragment that arrived for each part. -/
def Collected (received : List Fragment) (id m : Bytes) : Prop :=
  ∃ before window parts, received = before ++ window ∧ parts ≠ [] ∧ m = (parts.map (·.payload)).flatten ∧
    ∀ i f, parts[i]? = some f → FirstPart window id parts.length (i + 1) f

end Otrr.Spec
