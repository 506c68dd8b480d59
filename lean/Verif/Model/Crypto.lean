import Verif.Model.Encoding
/-!
# Model of src/crypto.rs, except the modules `ed448` and `otr4`

Hash functions, MACs, stream ciphers and DSA are arbitrary functions (fields of `Env`); groups are
parameters, with the constants of the code as instances.
-/

namespace Otrr

/-- Parameters of a D-H group. -/
structure DHGroup where
  p : Nat
  g : Nat
  q : Nat
  deriving DecidableEq, Repr

/-- Module `dh`: `GENERATOR`, `MODULUS`, `Q`, src/crypto.rs 27-54. -/
def dh1536 : DHGroup where
  p := 0xFFFFFFFFFFFFFFFFC90FDAA22168C234C4C6628B80DC1CD129024E088A67CC74020BBEA63B139B22514A08798E3404DDEF9519B3CD3A431B302B0A6DF25F14374FE1356D6D51C245E485B576625E7EC6F44C42E9A637ED6B0BFF5CB6F406B7EDEE386BFB5A899FA5AE9F24117C4B1FE649286651ECE45B3DC2007CB8A163BF0598DA48361C55D39A69163FA8FD24CF5F83655D23DCA3AD961C62F356208552BB9ED529077096966D670C354E4ABC9804F1746C08CA237327FFFFFFFFFFFFFFFF
  g := 2
  q := (0xFFFFFFFFFFFFFFFFC90FDAA22168C234C4C6628B80DC1CD129024E088A67CC74020BBEA63B139B22514A08798E3404DDEF9519B3CD3A431B302B0A6DF25F14374FE1356D6D51C245E485B576625E7EC6F44C42E9A637ED6B0BFF5CB6F406B7EDEE386BFB5A899FA5AE9F24117C4B1FE649286651ECE45B3DC2007CB8A163BF0598DA48361C55D39A69163FA8FD24CF5F83655D23DCA3AD961C62F356208552BB9ED529077096966D670C354E4ABC9804F1746C08CA237327FFFFFFFFFFFFFFFF - 1) / 2

/-- Module `dh3072`: `P`, `G3`, `Q`, src/crypto.rs 1804-1879. -/
def dh3072 : DHGroup where
  p := 0xFFFFFFFFFFFFFFFFC90FDAA22168C234C4C6628B80DC1CD129024E088A67CC74020BBEA63B139B22514A08798E3404DDEF9519B3CD3A431B302B0A6DF25F14374FE1356D6D51C245E485B576625E7EC6F44C42E9A637ED6B0BFF5CB6F406B7EDEE386BFB5A899FA5AE9F24117C4B1FE649286651ECE45B3DC2007CB8A163BF0598DA48361C55D39A69163FA8FD24CF5F83655D23DCA3AD961C62F356208552BB9ED529077096966D670C354E4ABC9804F1746C08CA18217C32905E462E36CE3BE39E772C180E86039B2783A2EC07A28FB5C55DF06F4C52C9DE2BCBF6955817183995497CEA956AE515D2261898FA051015728E5A8AAAC42DAD33170D04507A33A85521ABDF1CBA64ECFB850458DBEF0A8AEA71575D060C7DB3970F85A6E1E4C7ABF5AE8CDB0933D71E8C94E04A25619DCEE3D2261AD2EE6BF12FFA06D98A0864D87602733EC86A64521F2B18177B200CBBE117577A615D6C770988C0BAD946E208E24FA074E5AB3143DB5BFCE0FD108E4B82D120A93AD2CAFFFFFFFFFFFFFFFF
  g := 2
  q := 0x7FFFFFFFFFFFFFFFE487ED5110B4611A62633145C06E0E68948127044533E63A0105DF531D89CD9128A5043CC71A026EF7CA8CD9E69D218D98158536F92F8A1BA7F09AB6B6A8E122F242DABB312F3F637A262174D31BF6B585FFAE5B7A035BF6F71C35FDAD44CFD2D74F9208BE258FF324943328F6722D9EE1003E5C50B1DF82CC6D241B0E2AE9CD348B1FD47E9267AFC1B2AE91EE51D6CB0E3179AB1042A95DCF6A9483B84B4B36B3861AA7255E4C0278BA3604650C10BE19482F23171B671DF1CF3B960C074301CD93C1D17603D147DAE2AEF837A62964EF15E5FB4AAC0B8C1CCAA4BE754AB5728AE9130C4C7D02880AB9472D45556216D6998B8682283D19D42A90D5EF8E5D32767DC2822C6DF785457538ABAE83063ED9CB87C2D370F263D5FAD7466D8499EB8F464A702512B0CEE771E9130D697735F897FD036CC504326C3B01399F643532290F958C0BBD90065DF08BABBD30AEB63B84C4605D6CA371047127D03A72D598A1EDADFE707E884725C16890549D69657FFFFFFFFFFFFFFF

/-- `ed448::Point`, src/crypto.rs 1543-1547.  Simplification: coordinates are `Nat`; every point the code
constructs has coordinates in `0..=P`. -/
structure Point where
  x : Nat
  y : Nat
  deriving DecidableEq, Repr, Inhabited

/-- Parameters of an Edwards curve x^2 + y^2 = 1 + d x^2 y^2 over the integers modulo `p`, with base point
`G` of order `q`. -/
structure Curve where
  p : Nat
  q : Nat
  d : Int
  G : Point
  deriving DecidableEq, Repr

/-- `dsa::PublicKey`, src/crypto.rs 437-438. -/
structure DSAPublicKey where
  p : Nat
  q : Nat
  g : Nat
  y : Nat
  deriving DecidableEq, Repr, Inhabited

/-- `dsa::Keypair`, src/crypto.rs 402-405: public key and secret exponent. -/
structure DSAKeypair where
  pk : DSAPublicKey
  x : Nat
  deriving DecidableEq, Repr, Inhabited

/-- `dsa::Signature`, src/crypto.rs 502-503. -/
structure DSASignature where
  r : Nat
  s : Nat
  deriving DecidableEq, Repr, Inhabited

/-- The environment the code runs in: third-party primitives as arbitrary functions, and the group
parameters.  Only output lengths are assumed of the primitives. -/
structure Env where
  /-- `sha1::digest`, src/crypto.rs 542. -/
  sha1 : Bytes → Bytes
  /-- `sha1::hmac` (key, data), src/crypto.rs 550. -/
  hmacSha1 : Bytes → Bytes → Bytes
  /-- `sha256::digest`, src/crypto.rs 582. -/
  sha256 : Bytes → Bytes
  /-- `sha256::hmac` (key, data), src/crypto.rs 591. -/
  hmacSha256 : Bytes → Bytes → Bytes
  /-- `shake256::digest::<N>`, src/crypto.rs 1146. -/
  shake : Nat → Bytes → Bytes
  /-- Key stream of AES-128-CTR (key, nonce, position), src/crypto.rs 366-371. -/
  aesStream : Bytes → Bytes → Nat → UInt8
  /-- Key stream of ChaCha20 with zero nonce (key, position), src/crypto.rs 1130-1136. -/
  chachaStream : Bytes → Nat → UInt8
  /-- The checks of the `dsa` crate on the components p, q, g, y, src/crypto.rs 456-465. -/
  dsaKeyOk : Nat → Nat → Nat → Nat → Bool
  /-- `sign_prehash` of the `dsa` crate (deterministic, RFC 6979), src/crypto.rs 433. -/
  dsaSign : DSAKeypair → Bytes → DSASignature
  /-- `verify_prehash` of the `dsa` crate, src/crypto.rs 474-475. -/
  dsaVerify : DSAPublicKey → Bytes → DSASignature → Bool
  /-- The Unicode class `\\d` above ASCII, used by the regular expressions. -/
  nd : Nat → Bool
  dh : DHGroup
  dh3 : DHGroup
  curve : Curve
  sha1_len : ∀ d, (sha1 d).length = 20
  hmacSha1_len : ∀ k d, (hmacSha1 k d).length = 20
  sha256_len : ∀ d, (sha256 d).length = 32
  hmacSha256_len : ∀ k d, (hmacSha256 k d).length = 32
  shake_len : ∀ n d, (shake n d).length = n

/-- A source of random bytes for one call: `bytes site n` are the `n` bytes drawn at the call site
labelled `site`.  Theorems quantify over all sources (`utils::random`, src/utils.rs 280-300). -/
structure Rand where
  bytes : List Nat → Nat → Bytes
  length_bytes : ∀ site n, (bytes site n).length = n

/-- The source seen by a sub-call. -/
def Rand.sub (r : Rand) (k : Nat) : Rand where
  bytes site n := r.bytes (k :: site) n
  length_bytes site n := r.length_bytes (k :: site) n

/-- `BigUint::modpow`. -/
def modpow (b e m : Nat) : Nat := b ^ e % m

/-! ## Module `dh` -/

namespace DH

/-- `dh::verify_public_key`, src/crypto.rs 78-86. -/
def verifyPublicKey (G : DHGroup) (k : Nat) : Res Unit :=
  if k ≥ G.g ∧ k ≤ G.p - 2 then .ok () else .err .cryptographicViolation

/-- `dh::verify_exponent`, src/crypto.rs 92-100. -/
def verifyExponent (G : DHGroup) (e : Nat) : Res Unit :=
  if e ≥ 1 ∧ e < G.q then .ok () else .err .cryptographicViolation

/-- `dh::Keypair`, src/crypto.rs 102-106; also `dh3072::KeyPair`, 1897-1901. -/
structure Keypair where
  priv : Nat
  pub : Nat
  deriving DecidableEq, Repr, Inhabited

/-- `dh::Keypair::new_custom`, src/crypto.rs 141-144. -/
def Keypair.newCustom (G : DHGroup) (g priv : Nat) : Keypair := ⟨priv, modpow g priv G.p⟩

/-- `dh::Keypair::new`, src/crypto.rs 135-137. -/
def Keypair.new (G : DHGroup) (priv : Nat) : Keypair := Keypair.newCustom G G.g priv

/-- `dh::Keypair::generate`, src/crypto.rs 121-131, from the 192 random bytes drawn.  The assertion that
they are not all zero is not modelled. -/
def Keypair.generate (G : DHGroup) (rnd : Bytes) : Keypair := Keypair.new G (beNat rnd)

/-- `dh::Keypair::generate_shared_secret`, src/crypto.rs 154-156; also `dh3072`, 1918-1920. -/
def Keypair.sharedSecret (G : DHGroup) (k : Keypair) (pub : Nat) : Nat := modpow pub k.priv G.p

/-- `dh::verify`, src/crypto.rs 168-180 (without the pointer assertion). -/
def verify (expected actual : Nat) : Res Unit :=
  if expected = actual then .ok () else .err .cryptographicViolation

/-- `dh3072::verify`, src/crypto.rs 1886-1893. -/
def verify3 (G : DHGroup) (v : Nat) : Res Unit :=
  if v < G.g ∨ v > G.p - G.g ∨ modpow v G.q G.p ≠ 1 then .err .cryptographicViolation else .ok ()

/-- `dh3072::KeyPair::generate`, src/crypto.rs 1905-1910, from the 80 random bytes drawn. -/
def Keypair.generate3 (G : DHGroup) (rnd : Bytes) : Keypair := Keypair.new G (beNat rnd)

end DH

/-! ## Modules `aes128`, `chacha20` -/

/-- Add a key stream to data. -/
def xorStream (ks : Nat → UInt8) (data : Bytes) : Bytes := data.mapIdx fun i b => b ^^^ ks i

/-- `aes128::Key::encrypt`, `decrypt`, `crypt`, src/crypto.rs 356-371. -/
def aesCrypt (E : Env) (key nonce data : Bytes) : Bytes := xorStream (E.aesStream key nonce) data

/-- `chacha20::encrypt`, `decrypt`, `crypt`, src/crypto.rs 1121-1136. -/
def chachaCrypt (E : Env) (key data : Bytes) : Bytes := xorStream (E.chachaStream key) data

/-! ## Module `dsa` -/

/-- `prehash`, src/crypto.rs 532-534.  The fixed-size conversion cannot fail: `q` has 160 bits. -/
def dsaPrehash (data : Bytes) (q : Nat) : Bytes := beBytes 20 (beNat data % q)

/-- Number of bits of `v`: `BigUint::bits`. -/
def bits (v : Nat) : Nat := if v = 0 then 0 else Nat.log2 v + 1

/-- `PublicKey::from_components`, src/crypto.rs 445-466. -/
def DSAPublicKey.fromComponents (E : Env) (p q g y : Nat) : Res DSAPublicKey :=
  if bits q ≠ 160 then .err .cryptographicViolation
  else if E.dsaKeyOk p q g y then .ok ⟨p, q, g, y⟩
  else .err .cryptographicViolation

/-- `Keypair::sign`, src/crypto.rs 431-434. -/
def DSAKeypair.sign (E : Env) (k : DSAKeypair) (data : Bytes) : DSASignature :=
  E.dsaSign k (dsaPrehash data k.pk.q)

/-- `PublicKey::validate`, src/crypto.rs 472-479. -/
def DSAPublicKey.validate (E : Env) (pk : DSAPublicKey) (sig : DSASignature) (data : Bytes) : Res Unit :=
  if E.dsaVerify pk (dsaPrehash data pk.q) sig then .ok () else .err .cryptographicViolation

/-- `Signature::from`, src/crypto.rs 521-529; the `dsa` crate rejects zero components. -/
def DSASignature.from (r s : Nat) : Res DSASignature :=
  if r = 0 ∨ s = 0 then .err .cryptographicViolation else .ok ⟨r, s⟩

/-- `Signature::encode`, src/crypto.rs 505-514.  Components of a DSA signature are below the 160-bit `q`,
so the fixed-size conversion cannot fail. -/
def wDsaSignature (s : DSASignature) : Bytes := beBytes 20 s.r ++ beBytes 20 s.s

/-- `write_public_key`, src/encoding.rs 388-394. -/
def wPublicKey (k : DSAPublicKey) : Bytes := wU16 0 ++ wMpi k.p ++ wMpi k.q ++ wMpi k.g ++ wMpi k.y

/-- `read_public_key`, src/encoding.rs 167-180. -/
def readPublicKey (E : Env) : Dec DSAPublicKey := do
  let t ← readU16
  if t ≠ 0 then Dec.fail .protocolViolation
  else do
    let p ← readMpi
    let q ← readMpi
    let g ← readMpi
    let y ← readMpi
    Dec.lift (DSAPublicKey.fromComponents E p q g y)

/-- `read_dsa_signature`, src/encoding.rs 182-187. -/
def readDsaSignature : Dec DSASignature := do
  let r ← readN 20
  let s ← readN 20
  Dec.lift (DSASignature.from (beNat r) (beNat s))

/-! ## Module `otr` -/

/-- `h1`, src/crypto.rs 290-294. -/
def h1 (E : Env) (b : UInt8) (sec : Bytes) : Bytes := E.sha1 (b :: sec)

/-- `h2`, src/crypto.rs 296-300. -/
def h2 (E : Env) (b : UInt8) (sec : Bytes) : Bytes := E.sha256 (b :: sec)

/-- `AKESecrets`, src/crypto.rs 191-199. -/
structure AKESecrets where
  ssid : Bytes
  c : Bytes
  cp : Bytes
  m1 : Bytes
  m1p : Bytes
  m2 : Bytes
  m2p : Bytes
  deriving DecidableEq, Repr

/-- `AKESecrets::derive`, src/crypto.rs 217-229. -/
def AKESecrets.derive (E : Env) (sec : Bytes) : AKESecrets where
  ssid := (h2 E 0 sec).take 8
  c := (h2 E 1 sec).take 16
  cp := (h2 E 1 sec).drop 16
  m1 := h2 E 2 sec
  m2 := h2 E 3 sec
  m1p := h2 E 4 sec
  m2p := h2 E 5 sec

/-- `DataSecrets`, src/crypto.rs 232-235. -/
structure DataSecrets where
  sendkey : Bytes
  recvkey : Bytes
  deriving DecidableEq, Repr

/-- `DataSecrets::derive`, src/crypto.rs 245-267: panics if both public keys are equal. -/
def DataSecrets.derive (E : Env) (ours theirs : Nat) (sec : Bytes) : Res DataSecrets :=
  if ours = theirs then .panic
  else
    let (sb, rb) := if ours > theirs then ((1 : UInt8), (2 : UInt8)) else (2, 1)
    .ok ⟨(h1 E sb sec).take 16, (h1 E rb sec).take 16⟩

/-- `sender_mac_key`, src/crypto.rs 275-277. -/
def DataSecrets.senderMac (E : Env) (s : DataSecrets) : Bytes := E.sha1 s.sendkey

/-- `receiver_mac_key`, src/crypto.rs 285-287. -/
def DataSecrets.receiverMac (E : Env) (s : DataSecrets) : Bytes := E.sha1 s.recvkey

/-- `fingerprint`, src/crypto.rs 303-311. -/
def fingerprint3 (E : Env) (pk : DSAPublicKey) : Bytes := E.sha1 ((wPublicKey pk).drop 2)

/-- `sha256::hmac160`, src/crypto.rs 601-607. -/
def hmac160 (E : Env) (k d : Bytes) : Bytes := (E.hmacSha256 k d).take 20

/-! ## Module `constant` -/

/-- `verify_nonzero`, src/crypto.rs 2051-2053, src/utils.rs 15-21. -/
def verifyNonzero (data : Bytes) : Res Unit :=
  if anyNonzero data then .ok () else .err .cryptographicViolation

/-- `compare`, `compare_bytes`, `compare_bytes_distinct`, src/crypto.rs 1998-2012, 2043-2048 (without
the pointer assertion).  `ring::constant_time::verify_slices_are_equal` fails on unequal lengths. -/
def compareBytes (a b : Bytes) : Res Unit := do
  verifyNonzero a
  verifyNonzero b
  if a = b then .ok () else .err .cryptographicViolation

/-- The accumulation loop of `diff`, src/crypto.rs 2026-2029. -/
def diffAcc : Bytes → Bytes → UInt8 → UInt8
  | a :: as, b :: bs, acc => diffAcc as bs (acc ||| (a ^^^ b))
  | _, _, acc => acc

/-- The reduction to one bit in `diff`, src/crypto.rs 2031-2038. -/
def diffFold (d : UInt8) : UInt8 :=
  (d &&& 0x80) >>> 7 ||| (d &&& 0x40) >>> 6 ||| (d &&& 0x20) >>> 5 ||| (d &&& 0x10) >>> 4 |||
  (d &&& 0x08) >>> 3 ||| (d &&& 0x04) >>> 2 ||| (d &&& 0x02) >>> 1 ||| (d &&& 0x01)

/-- `diff`, src/crypto.rs 2022-2041: panics on all-zero slices and on unequal lengths. -/
def diffBytes (a b : Bytes) : Res UInt8 := do
  Res.assert (anyNonzero a)
  Res.assert (anyNonzero b)
  Res.assert (a.length = b.length)
  let r := diffFold (diffAcc a b 0)
  Res.assert (r == 0 || r == 1)
  return r

/-- `compare_scalars`, `compare_scalars_distinct`, src/crypto.rs 1939-1956, for non-negative scalars: the
sign of 0 differs from that of any other scalar, and `0` encodes to all-zero bytes. -/
def compareScalars (a b : Nat) : Res Unit :=
  if (a = 0) ≠ (b = 0) then .panic
  else if a = 0 then .err .cryptographicViolation
  else if a = b then .ok ()
  else .err .cryptographicViolation

end Otrr
