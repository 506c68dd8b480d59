import Verif.Spec.Fragment
import Verif.Spec.Messages
/-!
# Regular expressions

The semantics of the patterns of src/fragment.rs and src/messages.rs: the syntax of the `regex` crate as far as the
patterns use it, and its rule for matches, "leftmost first": of all matches the one that starts first is taken, and of
those that start there, the one that a backtracking search finds first, where repetitions are greedy.
-/

namespace Otrr.Spec.Regex
open Otrr

/-- A regular expression. -/
inductive Re
  | empty
  /-- One byte in one of the ranges. -/
  | byte (ranges : List (Nat × Nat))
  /-- `\d`: one digit of any script. -/
  | digit
  | seq (a b : Re)
  /-- Between `lo` and `hi` times, or any number of times from `lo`; greedy. -/
  | rep (lo : Nat) (hi : Option Nat) (a : Re)
  /-- A numbered group. -/
  | group (n : Nat) (a : Re)
  deriving DecidableEq, Repr

/-! ## Semantics -/

/-- A match at the start of a text: what the groups matched, the latest last; the text matched; the rest. -/
abbrev Match := List (Nat × Bytes) × Bytes × Bytes

/-- First `x`, then what matches after it. -/
def andThen (x : Match) (f : Bytes → List Match) : List Match :=
  (f x.2.2).map fun y => (x.1 ++ y.1, x.2.1 ++ y.2.1, y.2.2)

/-- `f` exactly `lo` times, then up to `n` times more, preferring more. -/
def many (f : Bytes → List Match) : Nat → Nat → Bytes → List Match
  | 0, 0, s => [([], [], s)]
  | 0, n + 1, s => (f s).flatMap (fun x => andThen x (many f 0 n)) ++ [([], [], s)]
  | lo + 1, n, s => (f s).flatMap fun x => andThen x (many f lo n)

/-- Is the character a digit?  `nd` are the digits beyond ASCII. -/
def isDigitChar (nd : Nat → Bool) (c : Char) : Bool :=
  if c.toNat < 128 then '0' ≤ c && c ≤ '9' else nd c.toNat

/-- All matches at the start of a text, in order of preference. -/
def runs (nd : Nat → Bool) : Re → Bytes → List Match
  | .empty, s => [([], [], s)]
  | .byte rs, s =>
    match s with
    | b :: r => if rs.any fun (lo, hi) => lo ≤ b.toNat && b.toNat ≤ hi then [([], [b], r)] else []
    | [] => []
  | .digit, s =>
    match s.toByteArray.utf8DecodeChar? 0 with
    | some c => if isDigitChar nd c then [([], s.take c.utf8Size, s.drop c.utf8Size)] else []
    | none => []
  | .seq a b, s => (runs nd a s).flatMap fun x => andThen x (runs nd b)
  | .rep lo hi a, s =>
    many (runs nd a) lo (match hi with | some h => h - lo | none => s.length) s
  | .group n a, s => (runs nd a s).map fun x => (x.1 ++ [(n, x.2.1)], x.2.1, x.2.2)

/-- The match found, if any, at the first place where there is one. -/
def search (nd : Nat → Bool) (r : Re) : Bytes → Option Match
  | [] => (runs nd r []).head?
  | b :: s => ((runs nd r (b :: s)).head?).or (search nd r s)

/-- What group `n` matched last. -/
def cap (x : Match) (n : Nat) : Option Bytes := ((x.1.filter (·.1 == n)).getLast?).map (·.2)

/-- The text without all matches; matches do not overlap. -/
def remove (nd : Nat → Bool) (r : Re) : Nat → Bytes → Bytes
  | 0, s => s
  | _ + 1, [] => []
  | n + 1, b :: s =>
    match (runs nd r (b :: s)).head? with
    | some x => remove nd r n x.2.2
    | none => b :: remove nd r n s

/-! ## Syntax -/

/-- An escaped character. -/
def escape : Char → Re
  | 'd' => .digit
  | 't' => .byte [(9, 9)]
  | c => .byte [(c.toNat, c.toNat)]

/-- A class up to the closing bracket. -/
def parseClass : List Char → Option (List (Nat × Nat) × List Char)
  | [] => none
  | ']' :: r => some ([], r)
  | '\\' :: 't' :: r => (parseClass r).map fun (l, r) => ((9, 9) :: l, r)
  | '\\' :: c :: r => (parseClass r).map fun (l, r) => ((c.toNat, c.toNat) :: l, r)
  | c :: '-' :: d :: r => (parseClass r).map fun (l, r) => ((c.toNat, d.toNat) :: l, r)
  | c :: r => (parseClass r).map fun (l, r) => ((c.toNat, c.toNat) :: l, r)

/-- A decimal number. -/
def parseNat : List Char → Nat → Nat × List Char
  | [], n => (n, [])
  | c :: r, n => if c.isDigit then parseNat r (10 * n + (c.toNat - 48)) else (n, c :: r)

/-- A quantifier. -/
def quantify (a : Re) : List Char → Re × List Char
  | '?' :: r => (.rep 0 (some 1) a, r)
  | '*' :: r => (.rep 0 none a, r)
  | '+' :: r => (.rep 1 none a, r)
  | '{' :: r =>
    match parseNat r 0 with
    | (lo, '}' :: r) => (.rep lo (some lo) a, r)
    | (lo, ',' :: r) => let (hi, r) := parseNat r 0; (.rep lo (some hi) a, r.drop 1)
    | (_, r) => (a, r)
  | r => (a, r)

/-- A sequence, up to the end or a closing parenthesis.  `n` is the number of the next group. -/
def parseSeq : Nat → Nat → List Char → Option (Re × Nat × List Char)
  | 0, _, _ => none
  | _ + 1, n, [] => some (.empty, n, [])
  | fuel + 1, n, c :: r => do
    let (a, n, r) ← match c, r with
      | ')', r => return (.empty, n, ')' :: r)
      | '(', r => do
        let (a, m, r) ← parseSeq fuel (n + 1) r
        match r with
        | ')' :: r => some (Re.group n a, m, r)
        | _ => none
      | '[', r => do
        let (l, r) ← parseClass r
        some (Re.byte l, n, r)
      | '\\', c :: r => some (escape c, n, r)
      | c, r => some (Re.byte [(c.toNat, c.toNat)], n, r)
    let (a, r) := quantify a r
    let (b, n, r) ← parseSeq fuel n r
    return (.seq a b, n, r)

/-- The expression of a pattern. -/
def compile (pattern : String) : Option Re :=
  match parseSeq (2 * pattern.length + 1) 1 pattern.toList with
  | some (a, _, []) => some a
  | _ => none

/-! ## The patterns -/

/-- src/fragment.rs 32. -/
def FRAGMENT_V3_PATTERN : String :=
  r"\?OTR\|([0-9a-fA-F]{1,8})\|([0-9a-fA-F]{1,8}),(\d{1,5}),(\d{1,5}),([A-Za-z0-9\+/=\?:\.]+),"

/-- src/fragment.rs 42. -/
def FRAGMENT_V4_PATTERN : String :=
  r"\?OTR\|([0-9a-fA-F]{8})\|([0-9a-fA-F]{1,8})\|([0-9a-fA-F]{1,8}),(\d{1,5}),(\d{1,5}),([A-Za-z0-9\+/=\?:\.]+),"

/-- src/messages.rs 37. -/
def QUERY_PATTERN : String := r"\?OTR\??(:?v(\d*))?\?"

/-- src/messages.rs 41. -/
def WHITESPACE_PATTERN : String := r" \t  \t\t\t\t \t \t \t  ([ \t]{8})*"

/-! ## What the patterns mean -/

/-- The text has a match of the pattern, and `m` is the one found. -/
def Found (nd : Nat → Bool) (pattern : String) (text : Bytes) (m : Match) : Prop :=
  ∃ r, compile pattern = some r ∧ search nd r text = some m

/-- The text has no match of the pattern. -/
def NotFound (nd : Nat → Bool) (pattern : String) (text : Bytes) : Prop :=
  ∃ r, compile pattern = some r ∧ search nd r text = none

/-- The text is `text'` once all matches of the pattern are removed. -/
def Removed (nd : Nat → Bool) (pattern : String) (text text' : Bytes) : Prop :=
  ∃ r, compile pattern = some r ∧ text' = remove nd r text.length text

/-- The match of a fragment in a text: OTRv4 fragments are looked for first. -/
def FragmentFound (nd : Nat → Bool) (text : Bytes) : Version → Match → Prop
  | .v4, m => Found nd FRAGMENT_V4_PATTERN text m
  | .v3, m => NotFound nd FRAGMENT_V4_PATTERN text ∧ Found nd FRAGMENT_V3_PATTERN text m
  | _, _ => False

/-- The value of a hexadecimal digit. -/
def hexDigit (b : UInt8) : Nat :=
  if b.toNat ≤ 57 then b.toNat - 48 else if b.toNat ≤ 70 then b.toNat - 55 else b.toNat - 87

/-- The value of a hexadecimal number. -/
def hexadecimal (w : Bytes) : Nat := w.foldl (fun acc b => acc * 16 + hexDigit b) 0

/-- Group `n` matched a hexadecimal number of value `v`. -/
def Hex (m : Match) (n v : Nat) : Prop := ∃ w, cap m n = some w ∧ hexadecimal w = v

/-- Group `n` matched a number written with ASCII digits, of value `v`. -/
def Dec (m : Match) (n v : Nat) : Prop :=
  ∃ w, cap m n = some w ∧ (∀ b ∈ w, 48 ≤ b.toNat ∧ b.toNat ≤ 57) ∧ decimal w = v

/-- The match is the text of a fragment with this content.  The OTRv4 pattern has one group more, the first. -/
structure FragmentOf (v : Version) (m : Match) (f : Fragment) : Prop where
  version : f.version = v
  ident3 : v = .v3 → f.identifier = [0, 0, 0, 0]
  ident4 : v = .v4 → f.identifier.length = 4 ∧ Hex m 1 (beNat f.identifier)
  sender : Hex m (if v = .v4 then 2 else 1) f.sender.toNat
  receiver : Hex m (if v = .v4 then 3 else 2) f.receiver.toNat
  part : Dec m (if v = .v4 then 4 else 3) f.part.toNat
  total : Dec m (if v = .v4 then 5 else 4) f.total.toNat
  payload : cap m (if v = .v4 then 6 else 5) = some f.payload

/-- The number in group `n` is more than 16 bits, or not in ASCII digits. -/
def BadNumber (m : Match) (n : Nat) : Prop := ∀ v, v ≤ 65535 → ¬ Dec m n v

/-- What one byte of the list of versions stands for, if anything. -/
def versionOf (b : UInt8) : Option Version :=
  if b = 0x33 then some .v3 else if b = 0x34 then some .v4 else none

/-- What eight blanks stand for. -/
def tagVersions (t : Bytes) : List Version :=
  if t = ascii " \t \t  \t " then [.unsupported 1]
  else if t = ascii "  \t\t  \t " then [.unsupported 2]
  else if t = ascii "  \t\t  \t\t" then [.v3]
  else if t = ascii "  \t\t \t  " then [.v4]
  else []

/-- How a text that is not an encoded message is read, by the patterns. -/
inductive ReadsAs (nd : Nat → Bool) (text : Bytes) : Res MessageType → Prop
  | error (e : Bytes) : text = ascii "?OTR Error:" ++ e → ReadsAs nd text (.ok (.error e))
  | query (m : Match) (g : Bytes) : ¬ ascii "?OTR Error:" <+: text → Found nd QUERY_PATTERN text m → cap m 1 = some g →
      ReadsAs nd text (.ok (.query (g.filterMap versionOf)))
  | bareQuery (m : Match) : ¬ ascii "?OTR Error:" <+: text → Found nd QUERY_PATTERN text m → cap m 1 = none →
      ReadsAs nd text .panic
  | tagged (m : Match) (t text' : Bytes) : ¬ ascii "?OTR Error:" <+: text → NotFound nd QUERY_PATTERN text →
      Found nd WHITESPACE_PATTERN text m → cap m 1 = some t → Removed nd WHITESPACE_PATTERN text text' →
      ReadsAs nd text (.ok (.tagged (tagVersions t) text'))
  | bareTag (m : Match) : ¬ ascii "?OTR Error:" <+: text → NotFound nd QUERY_PATTERN text →
      Found nd WHITESPACE_PATTERN text m → cap m 1 = none → ReadsAs nd text .panic
  | plaintext : ¬ ascii "?OTR Error:" <+: text → NotFound nd QUERY_PATTERN text →
      NotFound nd WHITESPACE_PATTERN text → ReadsAs nd text (.ok (.plaintext text))

end Otrr.Spec.Regex
