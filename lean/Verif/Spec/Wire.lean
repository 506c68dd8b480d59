import Verif.Basic
/-!
# Specification vocabulary for wire formats

A reader is any function from the remaining bytes to a result and the bytes left.
-/

namespace Otrr.Spec

/-- `read` recovers every value satisfying `ok` from what `write` produced, whatever follows it, and
leaves exactly what follows. -/
def RoundTrip (ok : α → Prop) (write : α → Bytes) (read : Bytes → Res (α × Bytes)) : Prop :=
  ∀ v, ok v → ∀ rest : Bytes, read (write v ++ rest) = .ok (v, rest)

/-- `read` never panics; when it succeeds it has consumed a prefix of its input, and what it returned
depends on nothing but that prefix. -/
def TotalPrefixReader (read : Bytes → Res (α × Bytes)) : Prop :=
  ∀ s, read s ≠ .panic ∧
    ∀ a s', read s = .ok (a, s') → ∃ pre, s = pre ++ s' ∧ ∀ rest, read (pre ++ rest) = .ok (a, rest)

/-- `read` never panics; when it succeeds it leaves a suffix of its input.  For readers that read up
to the end of the buffer. -/
def TotalReader (read : Bytes → Res (α × Bytes)) : Prop :=
  ∀ s, read s ≠ .panic ∧ ∀ a s', read s = .ok (a, s') → ∃ pre, s = pre ++ s'

/-- An integer whose big-endian form has fewer than 2^32 bytes. -/
def FitsMpi (v : Nat) : Prop := ∃ k, k < 2 ^ 32 ∧ v < 256 ^ k

end Otrr.Spec
