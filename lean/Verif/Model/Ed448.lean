import Verif.Model.Crypto
/-!
# Model of the module `ed448` of src/crypto.rs

All functions take the curve parameters, so that small curves can be evaluated; `ed448` has the
constants of the code.
-/

namespace Otrr

/-- `G`, `P`, `Q`, `D`, src/crypto.rs 1178-1206. -/
def ed448 : Curve where
  p := 726838724295606890549323807888004534353641360687318060281490199180612328166730772686396383698676545930088884461843637361053498018365439
  q := 181709681073901722637330951972001133588410340171829515070372549795146003961539585716195755291692375963310293709091662304773755859649779
  d := -39081
  G := ⟨224580040295924300187604334099896036246789641632564134246125461686950415467406032909029192869357953282578032075146446173674602635247710,
    298819210078481492676017930443930673437544040154080242095928241372331506189835876003536878655418784733982303233503462500531545062832660⟩

/-- `mod_floor` of an integer by the modulus. -/
def modFloor (a : Int) (m : Nat) : Nat := (a % (m : Int)).toNat

/-- The extended Euclidean loop: from remainders `r0`, `r1` and coefficients `s0`, `s1` with
`s * a = r` modulo `m`.  The first argument is fuel; each round decreases `r1`. -/
def egcdLoop : Nat → Nat → Nat → Int → Int → Nat × Int
  | 0, r0, _, s0, _ => (r0, s0)
  | n + 1, r0, r1, s0, s1 =>
    if r1 = 0 then (r0, s0)
    else egcdLoop n r1 (r0 % r1) s1 (s0 - (r0 / r1 : Nat) * s1)

/-- `mod_inverse`: the inverse of `a` modulo `m`, if there is one. -/
def modInverse (a : Int) (m : Nat) : Option Nat :=
  let (g, s) := egcdLoop (m + 1) m (modFloor a m) 0 1
  if g = 1 then some (modFloor s m) else .none

namespace Point

/-- `I`, `identity`, src/crypto.rs 1189-1193, 1214-1217. -/
def identity : Point := ⟨0, 1⟩

/-- `is_identity`, src/crypto.rs 1720-1722. -/
def isIdentity (P : Point) : Bool := P.x == 0 && P.y == 1

/-- The product `D * x1 * x2 * y1 * y2` of the addition formulas. -/
def cross (c : Curve) (P R : Point) : Int := c.d * P.x * R.x * P.y * R.y

/-- The two `mod_inverse(..).unwrap()` of `add0` succeed.  `Lemmas/Edwards` proves this for all points on
the curve. -/
def addDefined (c : Curve) (P R : Point) : Bool :=
  P.isIdentity || R.isIdentity ||
    ((modInverse (1 + cross c P R) c.p).isSome && (modInverse (1 - cross c P R) c.p).isSome)

/-- `add0`, src/crypto.rs 1698-1717.  Simplification: where an `unwrap` would panic (see `addDefined`) the
inverse is replaced by 0. -/
def add (c : Curve) (P R : Point) : Point :=
  if P.isIdentity then R
  else if R.isIdentity then P
  else
    { x := modFloor ((P.x * R.y + P.y * R.x : Int) * (modInverse (1 + cross c P R) c.p).getD 0) c.p
      y := modFloor ((P.y * R.y - P.x * R.x : Int) * (modInverse (1 - cross c P R) c.p).getD 0) c.p }

/-- The loop of `mul0`, src/crypto.rs 1688-1693: rounds, remaining bits of the scalar, `result`, `temp`. -/
def mulLoop (c : Curve) : Nat → Nat → Point → Point → Point
  | 0, _, r, _ => r
  | n + 1, s, r, t => mulLoop c n (s / 2) (if s % 2 = 1 then add c r t else r) (add c t t)

/-- `mul0`, src/crypto.rs 1682-1695.  All scalars in the code are non-negative. -/
def mul (c : Curve) (P : Point) (s : Nat) : Point := mulLoop c (bits s) s identity P

/-- `neg`, src/crypto.rs 1606-1615. -/
def neg (c : Curve) (P : Point) : Point := ⟨c.p - P.x, P.y⟩

/-- `encode`, src/crypto.rs 1668-1679.  The assertions hold because `y < P < 2^448`. -/
def encode (P : Point) : Bytes := leBytes 56 P.y ++ [if P.x % 2 = 1 then 0x80 else 0]

/-- `num`, src/crypto.rs 1634. -/
def num (y : Nat) : Int := (y : Int) * y - 1

/-- `denom`, src/crypto.rs 1635. -/
def denom (c : Curve) (y : Nat) : Int := (y : Int) * y * c.d - 1

/-- The candidate square root, src/crypto.rs 1637-1645. -/
def root (c : Curve) (y : Nat) : Nat :=
  let n := num y
  let d := denom c y
  modFloor (n * n * n * d * (modpow (modFloor (n * n * n * n * n * d * d * d) c.p) ((c.p - 3) / 4) c.p : Nat)) c.p

/-- `decode`, src/crypto.rs 1626-1661, for a 57-byte array. -/
def decode (c : Curve) (e : Bytes) : Res Point :=
  let xbit := (e.getD 56 0 &&& 0x80) >>> 7
  let y := leNat (e.take 56)
  if y ≥ c.p then .err .cryptographicViolation
  else
    let x := root c y
    if modFloor (num y) c.p ≠ modFloor ((x : Int) * x * denom c y) c.p then .err .cryptographicViolation
    else if x = 0 ∧ xbit ≠ 0 then .err .cryptographicViolation
    else if (x % 2 = 0) ↔ (xbit = 0) then .ok ⟨x, y⟩
    else .ok ⟨c.p - x, y⟩

/-- `ed448::verify`, src/crypto.rs 1288-1299. -/
def verify (c : Curve) (P : Point) : Res Unit :=
  if P.isIdentity || P.x ≥ c.p || P.y ≥ c.p || !(mul c P c.q).isIdentity then .err .cryptographicViolation
  else .ok ()

end Point

/-- `compare_points`, `compare_points_distinct`, src/crypto.rs 1966-1980. -/
def comparePoints (P R : Point) : Res Unit := compareBytes P.encode R.encode

/-- `diff_points`, src/crypto.rs 1986-1988. -/
def diffPoints (P R : Point) : Res UInt8 := diffBytes P.encode R.encode

/-- `write_ed448_point`, src/encoding.rs 410-414. -/
def wPoint (P : Point) : Bytes := P.encode

/-- `write_ed448_scalar`, src/encoding.rs 416-421.  All scalars are at most `Q`, so they fit 57 bytes. -/
def wScalar (s : Nat) : Bytes := leBytes 57 s

/-- `decode_scalar`, src/crypto.rs 1325-1328: panics if all bytes are zero. -/
def decodeScalar (c : Curve) (e : Bytes) : Res Nat :=
  if anyNonzero e then .ok (leNat e % c.q) else .panic

/-- `read_ed448_point`, src/encoding.rs 234-239. -/
def readPoint (c : Curve) : Dec Point := do
  let e ← readN 57
  Dec.lift (Point.decode c e)

/-- `read_ed448_scalar`, src/encoding.rs 241-244. -/
def readScalar (c : Curve) : Dec Nat := do
  let e ← readN 57
  Dec.lift (decodeScalar c e)

/-- `ed448::Signature`, src/crypto.rs 1725-1726. -/
structure EdSignature where
  r : Bytes
  s : Bytes
  deriving DecidableEq, Repr, Inhabited

/-- `Signature::encode`, src/crypto.rs 1728-1733. -/
def wEdSignature (s : EdSignature) : Bytes := s.r ++ s.s

/-- `Signature::decode`, src/crypto.rs 1740-1746; `read_ed448_signature`, src/encoding.rs 229-232. -/
def readEdSignature : Dec EdSignature := do
  let r ← readN 57
  let s ← readN 57
  pure ⟨r, s⟩

/-! ## Key derivation used by the module (module `otr4`) -/

/-- `kdf`, `hwc`, `hcmac`, src/crypto.rs 652, 1078-1100. -/
def kdf (E : Env) (n : Nat) (usage : UInt8) (data : Bytes) : Bytes :=
  E.shake n ([0x4f, 0x54, 0x52, 0x76, 0x34] ++ [usage] ++ data)

/-- `kdf2`, `hwc2`, src/crypto.rs 1083-1086, 1103-1110. -/
def kdf2 (E : Env) (n : Nat) (usage : UInt8) (d1 d2 : Bytes) : Bytes :=
  E.shake n ([0x4f, 0x54, 0x52, 0x76, 0x34] ++ [usage] ++ d1 ++ d2)

/-- `hash_to_scalar`, src/crypto.rs 1316-1318.  The assertion that the 57 bytes of SHAKE output are not all
zero is not modelled. -/
def hashToScalar (E : Env) (usage : UInt8) (data : Bytes) : Nat :=
  leNat (kdf E 57 usage data) % E.curve.q

/-- `prune`, src/crypto.rs 1786-1792, for at least 57 bytes that are not all zero. -/
def prune (v : Bytes) : Bytes :=
  ((v.set 0 (v.getD 0 0 &&& 0xfc)).set 55 (v.getD 55 0 ||| 0x80)).set 56 0

/-- `random_in_Zq`, src/crypto.rs 1770-1778, from the 57 random bytes drawn.  The assertion that the SHAKE
output is not all zero is not modelled. -/
def randomInZq (E : Env) (rnd : Bytes) : Nat := leNat (prune (E.shake 57 rnd)) % E.curve.q

/-- `ECDHKeyPair`, src/crypto.rs 1331-1332. -/
structure ECDHKeyPair where
  priv : Nat
  pub : Point
  deriving DecidableEq, Repr, Inhabited

/-- `ECDHKeyPair::generate`, src/crypto.rs 1337-1345, from the random bytes drawn in `random_in_Zq`. -/
def ECDHKeyPair.generate (E : Env) (rnd : Bytes) : ECDHKeyPair :=
  let s := leNat (prune (E.shake 114 (natToLE (randomInZq E rnd))))
  ⟨s, Point.mul E.curve E.curve.G s⟩

/-- `generate_shared_secret`, src/crypto.rs 1353-1355. -/
def ECDHKeyPair.sharedSecret (E : Env) (k : ECDHKeyPair) (other : Point) : Point :=
  Point.mul E.curve other k.priv

/-- `EdDSAKeyPair`, src/crypto.rs 1231. -/
structure EdDSAKeyPair where
  sym : Bytes
  sk : Nat
  pub : Point
  deriving DecidableEq, Repr, Inhabited

/-- The secret scalar of a symmetric key, src/crypto.rs 1237-1241, 1255-1261. -/
def edSecret (E : Env) (sym : Bytes) : Nat := leNat (prune ((E.shake 114 sym).take 57))

/-- `EdDSAKeyPair::generate`, src/crypto.rs 1235-1244, from the 57 random bytes drawn. -/
def EdDSAKeyPair.generate (E : Env) (rnd : Bytes) : EdDSAKeyPair :=
  ⟨rnd, edSecret E rnd, Point.mul E.curve E.curve.G (edSecret E rnd)⟩

/-- `dom4("")`, src/crypto.rs 1749-1760. -/
def dom4 : Bytes := [0x53, 0x69, 0x67, 0x45, 0x64, 0x34, 0x34, 0x38, 0, 0]

/-- `EdDSAKeyPair::sign`, src/crypto.rs 1254-1281. -/
def EdDSAKeyPair.sign (E : Env) (k : EdDSAKeyPair) (m : Bytes) : EdSignature :=
  let s := edSecret E k.sym
  let pre := (E.shake 114 k.sym).drop 57
  let encA := (Point.mul E.curve E.curve.G s).encode
  let r := leNat (E.shake 114 (dom4 ++ pre ++ m))
  let encR := (Point.mul E.curve E.curve.G r).encode
  let kk := leNat (E.shake 114 (dom4 ++ encR ++ encA ++ m))
  ⟨encR, leBytes 57 ((r + kk * s) % E.curve.q)⟩

/-- `ed448::validate`, src/crypto.rs 1363-1386. -/
def edValidate (E : Env) (pk : Point) (sig : EdSignature) (m : Bytes) : Res Unit := do
  let R ← Point.decode E.curve sig.r
  Point.verify E.curve R
  let s := leNat sig.s
  if s = 0 ∨ s ≥ E.curve.q then .err .cryptographicViolation
  else
    let kk := leNat (E.shake 114 (dom4 ++ sig.r ++ pk.encode ++ m))
    comparePoints (Point.mul E.curve E.curve.G s)
      (Point.add E.curve R (Point.mul E.curve pk kk))

/-- `RingSignature`, src/crypto.rs 1389-1397. -/
structure RingSignature where
  c1 : Nat
  r1 : Nat
  c2 : Nat
  r2 : Nat
  c3 : Nat
  r3 : Nat
  deriving DecidableEq, Repr, Inhabited

/-- `RingSignature::encode`, src/crypto.rs 1399-1409. -/
def wRing (s : RingSignature) : Bytes :=
  wScalar s.c1 ++ wScalar s.r1 ++ wScalar s.c2 ++ wScalar s.r2 ++ wScalar s.c3 ++ wScalar s.r3

/-- `RingSignature::decode`, src/crypto.rs 1417-1434. -/
def readRing (c : Curve) : Dec RingSignature := do
  let c1 ← readScalar c
  let r1 ← readScalar c
  let c2 ← readScalar c
  let r2 ← readScalar c
  let c3 ← readScalar c
  let r3 ← readScalar c
  pure ⟨c1, r1, c2, r2, c3, r3⟩

/-- The hashed transcript of a ring signature, src/crypto.rs 1452-1465, 1506-1519.  `USAGE_AUTH` = 0x1A.
The length assertion of `write_data` is not modelled here. -/
def ringChallenge (E : Env) (A1 A2 A3 T1 T2 T3 : Point) (m : Bytes) : Nat :=
  hashToScalar E 0x1a (wPoint E.curve.G ++ wScalar E.curve.q ++ wPoint A1 ++ wPoint A2 ++ wPoint A3 ++
    wPoint T1 ++ wPoint T2 ++ wPoint T3 ++ wData m)

/-- `RingSignature::validate`, src/crypto.rs 1441-1468. -/
def RingSignature.validate (E : Env) (s : RingSignature) (A1 A2 A3 : Point) (m : Bytes) : Res Unit :=
  let c := E.curve
  let T1 := Point.add c (Point.mul c c.G s.r1) (Point.mul c A1 s.c1)
  let T2 := Point.add c (Point.mul c c.G s.r2) (Point.mul c A2 s.c2)
  let T3 := Point.add c (Point.mul c c.G s.r3) (Point.mul c A3 s.c3)
  compareScalars (ringChallenge E A1 A2 A3 T1 T2 T3 m) ((s.c1 + s.c2 + s.c3) % c.q)

/-- `RingSignature::sign`, src/crypto.rs 1478-1540, with the seven random scalars drawn at 1496-1502. -/
def RingSignature.sign (E : Env) (k : EdDSAKeyPair) (A1 A2 A3 : Point) (m : Bytes) (rnd : Rand) :
    Res RingSignature := do
  let c := E.curve
  Point.verify c A1
  Point.verify c A2
  Point.verify c A3
  let d1 ← diffPoints k.pub A1
  let d2 ← diffPoints k.pub A2
  let d3 ← diffPoints k.pub A3
  let eq1 := (1 - d1).toNat
  let eq2 := (1 - d2).toNat
  let eq3 := (1 - d3).toNat
  Res.assert (eq1 + eq2 + eq3 = 1)
  let t := randomInZq E (rnd.bytes [0] 57)
  let c1 := randomInZq E (rnd.bytes [1] 57)
  let c2 := randomInZq E (rnd.bytes [2] 57)
  let c3 := randomInZq E (rnd.bytes [3] 57)
  let r1 := randomInZq E (rnd.bytes [4] 57)
  let r2 := randomInZq E (rnd.bytes [5] 57)
  let r3 := randomInZq E (rnd.bytes [6] 57)
  let com (e r ci : Nat) (A : Point) : Point :=
    Point.add c (Point.mul c c.G (e * t))
      (Point.add c (Point.mul c c.G ((1 - e) * r)) (Point.mul c A ((1 - e) * ci)))
  let ch := ringChallenge E A1 A2 A3 (com eq1 r1 c1 A1) (com eq2 r2 c2 A2) (com eq3 r3 c3 A3) m
  let c1 := (1 - eq1) * c1 + eq1 * modFloor ((ch : Int) - c2 - c3) c.q
  let r1 := (1 - eq1) * r1 + eq1 * modFloor ((t : Int) - modFloor ((c1 : Int) * k.sk) c.q) c.q
  let c2 := (1 - eq2) * c2 + eq2 * modFloor ((ch : Int) - c1 - c3) c.q
  let r2 := (1 - eq2) * r2 + eq2 * modFloor ((t : Int) - modFloor ((c2 : Int) * k.sk) c.q) c.q
  let c3 := (1 - eq3) * c3 + eq3 * modFloor ((ch : Int) - c1 - c2) c.q
  let r3 := (1 - eq3) * r3 + eq3 * modFloor ((t : Int) - modFloor ((c3 : Int) * k.sk) c.q) c.q
  return ⟨c1, r1, c2, r2, c3, r3⟩

end Otrr
