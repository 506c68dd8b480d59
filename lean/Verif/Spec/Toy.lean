import Verif.Spec.Curve
import Verif.Lemmas.Bytes
/-!
# A small concrete environment, used to show that hypotheses of theorems can be met
-/

namespace Otrr.Spec

/-- The curve x^2 + y^2 = 1 + 5 x^2 y^2 modulo 43, which has 52 points; `G` has order 13. -/
def toyCurve : Curve := ⟨43, 13, 5, ⟨2, 39⟩⟩

/-- The subgroup of order 11 modulo 23. -/
def toyDH : DHGroup := ⟨23, 2, 11⟩

/-- A small mixing function in place of a hash. -/
def toyHash (n : Nat) (d : Bytes) : Bytes :=
  leBytes n (d.foldl (fun a b => (a * 257 + b.toNat + 1) % 340282366920938463463374607431768211297) 7 *
    115792089237316195423570985008687907853269984665640564039457584007908834671663)

/-- Toy primitives. -/
def toyEnv : Env where
  sha1 := toyHash 20
  hmacSha1 k d := toyHash 20 (k ++ d)
  sha256 := toyHash 32
  hmacSha256 k d := toyHash 32 (k ++ d)
  shake := toyHash
  aesStream k n i := (toyHash 1 (k ++ n ++ [UInt8.ofNat i])).getD 0 0
  chachaStream k i := (toyHash 1 (k ++ [UInt8.ofNat i])).getD 0 0
  dsaKeyOk _ _ _ _ := true
  dsaSign k h := ⟨beNat h + 1, k.x + 1⟩
  dsaVerify pk h s := s.r == beNat h + 1 && s.s == pk.y + 1
  nd _ := false
  dh := toyDH
  dh3 := toyDH
  curve := toyCurve
  sha1_len d := by simp [toyHash]
  hmacSha1_len k d := by simp [toyHash]
  sha256_len d := by simp [toyHash]
  hmacSha256_len k d := by simp [toyHash]
  shake_len n d := by simp [toyHash]

/-- A random source that returns different bytes at different sites. -/
def toyRand (seed : Nat) : Rand where
  bytes site n := toyHash n (UInt8.ofNat seed :: site.map UInt8.ofNat)
  length_bytes site n := by simp [toyHash]

/-- A random source whose numbers are below 256: the last of the `n` bytes is random, the others are 0. -/
def smallRand (seed : Nat) : Rand where
  bytes site n := (List.replicate n 0).set (n - 1) ((toyHash 1 (UInt8.ofNat seed :: site.map UInt8.ofNat)).getD 0 1)
  length_bytes site n := by simp

/-- The same environment with small values of SHA-256, which are used as exponents. -/
def smallEnv : Env := { toyEnv with
  sha256 := fun d => List.replicate 31 0 ++ [(toyHash 1 d).getD 0 0]
  sha256_len := fun d => by simp }

/-- The same environment with an extendable hash function that never returns only zero bytes. -/
def firmEnv : Env := { toyEnv with
  shake := fun n d => (toyHash n d).set 0 ((toyHash n d).getD 0 0 ||| 1)
  shake_len := fun n d => by simp [toyHash] }

end Otrr.Spec
