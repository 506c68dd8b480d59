import Verif.Lemmas.Ring
import Verif.Lemmas.Toy
import Verif.Spec.Wire
/-! C59 to C64: arithmetic, signatures and comparisons; C01 and C02 for keys, points and signatures. -/

namespace Otrr.Props
open Otrr Otrr.Spec

/-! ## C59 -/

/-- C59: with the constants of the code, a D-H public value is accepted exactly in the range 2 .. p-2, and
an exponent exactly in the range 1 .. q-1. -/
theorem C59_ranges (k : Nat) :
    (DH.verifyPublicKey dh1536 k = .ok () ↔ 2 ≤ k ∧ k ≤ dh1536.p - 2) ∧
    (DH.verifyPublicKey dh1536 k ≠ .ok () → DH.verifyPublicKey dh1536 k = .err .cryptographicViolation) ∧
    (DH.verifyExponent dh1536 k = .ok () ↔ 1 ≤ k ∧ k < (dh1536.p - 1) / 2) ∧
    (DH.verifyExponent dh1536 k ≠ .ok () → DH.verifyExponent dh1536 k = .err .cryptographicViolation) := by
  have hg : dh1536.g = 2 := rfl
  have hq : dh1536.q = (dh1536.p - 1) / 2 := by decide +kernel
  unfold DH.verifyPublicKey DH.verifyExponent
  rw [hg, hq]
  generalize (dh1536.p - 1) / 2 = q
  generalize dh1536.p - 2 = p
  refine ⟨?_, ?_, ?_, ?_⟩ <;> (split <;> simp_all)

/-- C59: a public value of the 3072-bit group is accepted exactly if it is in 2 .. p-2 and in the subgroup
of order q = (p-1)/2. -/
theorem C59_range_3072 (v : Nat) :
    DH.verify3 dh3072 v = .ok () ↔ 2 ≤ v ∧ v ≤ dh3072.p - 2 ∧ v ^ ((dh3072.p - 1) / 2) % dh3072.p = 1 := by
  have hg : dh3072.g = 2 := rfl
  have hq : dh3072.q = (dh3072.p - 1) / 2 := by decide +kernel
  unfold DH.verify3 modpow
  rw [hg, hq]
  generalize v ^ ((dh3072.p - 1) / 2) % dh3072.p = w
  generalize dh3072.p - 2 = p
  constructor
  · intro h
    split at h
    · cases h
    · rename_i hn
      simp only [not_or, not_not] at hn
      omega
  · rintro ⟨h1, h2, h3⟩
    rw [if_neg (by omega)]

example : DH.verifyPublicKey dh1536 2 = .ok () ∧ DH.verifyPublicKey dh1536 (dh1536.p - 2) = .ok () ∧
    DH.verifyPublicKey dh1536 1 = .err .cryptographicViolation ∧
    DH.verifyPublicKey dh1536 (dh1536.p - 1) = .err .cryptographicViolation ∧
    DH.verifyExponent dh1536 1 = .ok () ∧ DH.verifyExponent dh1536 dh1536.q = .err .cryptographicViolation := by
  decide +kernel
example : DH.verify3 toyDH 4 = .ok () ∧ DH.verify3 toyDH 5 = .err .cryptographicViolation := by decide

/-! ## C60 -/

/-- C60: a ring signature made with a key that is exactly one of three valid ring keys validates.  The last
hypothesis excludes a transcript whose hash is a multiple of `q`: the comparison rejects the zero scalar. -/
theorem C60_ring_signature (E : Env) (hc : GoodCurve E.curve) (k : EdDSAKeyPair)
    (hk : k.pub = Point.mul E.curve E.curve.G k.sk) (A1 A2 A3 : Point)
    (h1 : GoodKey E.curve A1) (h2 : GoodKey E.curve A2) (h3 : GoodKey E.curve A3)
    (hone : [A1, A2, A3].count k.pub = 1) (m : Bytes) (rnd : Rand) :
    ∃ s, RingSignature.sign E k A1 A2 A3 m rnd = .ok s ∧
      ((s.c1 + s.c2 + s.c3) % E.curve.q ≠ 0 → s.validate E A1 A2 A3 m = .ok ()) := by
  apply ring_sign_validate hc _ hk h1 h2 h3
  generalize k.pub = K at hone ⊢
  simp only [List.count_cons, List.count_nil, beq_iff_eq, @eq_comm _ _ K] at hone
  by_cases e1 : K = A1 <;> by_cases e2 : K = A2 <;> by_cases e3 : K = A3 <;>
    simp only [e1, e2, e3, if_true, if_false] at hone <;> simp_all

/-- C60 on the curve of the code, for a generated identity key. -/
theorem C60_ring_signature_ed448 (E : Env) (hE : E.curve = ed448) (rk : Bytes) (A1 A2 A3 : Point)
    (h1 : GoodKey ed448 A1) (h2 : GoodKey ed448 A2) (h3 : GoodKey ed448 A3)
    (hone : [A1, A2, A3].count (EdDSAKeyPair.generate E rk).pub = 1) (m : Bytes) (rnd : Rand) :
    ∃ s, RingSignature.sign E (EdDSAKeyPair.generate E rk) A1 A2 A3 m rnd = .ok s ∧
      ((s.c1 + s.c2 + s.c3) % ed448.q ≠ 0 → s.validate E A1 A2 A3 m = .ok ()) := by
  have := C60_ring_signature E (hE ▸ ed448_goodCurve) (EdDSAKeyPair.generate E rk) rfl A1 A2 A3
    (hE ▸ h1) (hE ▸ h2) (hE ▸ h3) hone m rnd
  rwa [hE] at this

/-- A toy key pair for the examples. -/
def toyKey : EdDSAKeyPair := ⟨[], 5, Point.mul toyCurve toyCurve.G 5⟩

theorem toyMul_good (n : Nat) (h : Point.mul toyCurve toyCurve.G n ≠ Point.identity) :
    GoodKey toyCurve (Point.mul toyCurve toyCurve.G n) :=
  ⟨(mulG_good toy_goodCurve n).1, h, (mulG_good toy_goodCurve n).2⟩

example : GoodKey toyCurve (Point.mul toyCurve toyCurve.G 3) ∧ GoodKey toyCurve (Point.mul toyCurve toyCurve.G 5) ∧
    GoodKey toyCurve (Point.mul toyCurve toyCurve.G 8) ∧
    [Point.mul toyCurve toyCurve.G 3, Point.mul toyCurve toyCurve.G 5, Point.mul toyCurve toyCurve.G 8].count toyKey.pub = 1 ∧
    (match RingSignature.sign toyEnv toyKey (Point.mul toyCurve toyCurve.G 3) (Point.mul toyCurve toyCurve.G 5)
        (Point.mul toyCurve toyCurve.G 8) [1, 2] (toyRand 5) with
      | .ok s => (s.c1 + s.c2 + s.c3) % 13 != 0
      | _ => false) = true :=
  ⟨toyMul_good 3 (by decide +kernel), toyMul_good 5 (by decide +kernel), toyMul_good 8 (by decide +kernel),
    by decide +kernel, by decide +kernel⟩

/-! ## C61 -/

/-- C61, first half: every point of the curve survives encoding and decoding, and its encoding has 57 bytes. -/
theorem C61_point_roundtrip (c : Curve) (h : GoodField c) (P : Point) (hP : OnCurve c P) :
    P.encode.length = 57 ∧ Point.decode c P.encode = .ok P :=
  ⟨P.encode_length, Point.decode_encode h hP⟩

/-- C61, second half, is false of the code: the low seven bits of the last byte are ignored, so every point
of the curve has a second encoding that is accepted. -/
theorem C61_violated (P : Point) (hP : OnCurve ed448 P) :
    ∃ e : Bytes, e.length = 57 ∧ e ≠ P.encode ∧ Point.decode ed448 e = .ok P := by
  have hl : (leBytes 56 P.y).length = 56 := by simp
  refine ⟨leBytes 56 P.y ++ [if P.x % 2 = 1 then 0x81 else 1], by simp, ?_, ?_⟩
  · unfold Point.encode
    intro h
    have := List.append_cancel_left h
    split at this <;> simp at this
  · have h1 := Point.decode_encode ed448_goodField hP
    have hd : ∀ a b : UInt8, a &&& 0x80 = b &&& 0x80 →
        Point.decode ed448 (leBytes 56 P.y ++ [a]) = Point.decode ed448 (leBytes 56 P.y ++ [b]) := by
      intro a b hab
      unfold Point.decode
      rw [getD_append_56 hl, getD_append_56 hl, hab, List.take_append_of_le_length (by omega),
        List.take_append_of_le_length (by omega)]
    rw [← h1]
    unfold Point.encode
    apply hd
    split <;> rfl

/-- C61, second half, as far as it holds: an accepted string decodes to a point of the curve, the rest of the
string (all but the low seven bits of the last byte) is the canonical encoding, and nothing panics. -/
theorem C61_canonical_partial (c : Curve) (h : GoodField c) (e : Bytes) (hl : e.length = 57) :
    Point.decode c e ≠ .panic ∧
    ∀ P, Point.decode c e = .ok P →
      OnCurve c P ∧ P.encode = e.take 56 ++ [e.getD 56 0 &&& 0x80] ∧
      (e.getD 56 0 &&& 0x7f = 0 → P.encode = e) := by
  refine ⟨Point.decode_ne_panic c e, fun P hP => ?_⟩
  obtain ⟨h1, h2⟩ := Point.decode_spec h hl hP
  refine ⟨h1, h2, fun h0 => ?_⟩
  rw [h2]
  have h3 : e.getD 56 0 &&& 0x80 = e.getD 56 0 := by
    have key : ∀ n : Fin 256, UInt8.ofNat n.val &&& 0x7f = 0 → UInt8.ofNat n.val &&& 0x80 = UInt8.ofNat n.val := by
      decide +kernel
    have := key ⟨(e.getD 56 0).toNat, (e.getD 56 0).toNat_lt⟩
    simp only [UInt8.ofNat_toNat] at this
    exact this h0
  rw [h3]
  have h4 : e = e.take 56 ++ e.drop 56 := (List.take_append_drop 56 e).symm
  conv_rhs => rw [h4]
  congr 1
  have h5 : (e.drop 56).length = 1 := by simp [hl]
  obtain ⟨x, hx⟩ := List.length_eq_one_iff.mp h5
  have h6 : e.getD 56 0 = x := by
    have : (e.drop 56)[0]? = some x := by rw [hx]; rfl
    rw [List.getElem?_drop] at this
    simp only [Nat.add_zero] at this
    rw [List.getD_eq_getElem?_getD, this]
    rfl
  rw [hx, h6]

example : OnCurve ed448 ed448.G := ed448_base
example : GoodField ed448 := ed448_goodField
example : Point.decode toyCurve (Point.encode ⟨36, 12⟩) = .ok ⟨36, 12⟩ := by decide +kernel

/-! ## C62 -/

/-- C62: the comparison of byte strings succeeds exactly for equal strings that are not all zero, and never
panics. -/
theorem C62_compare (a b : Bytes) :
    (compareBytes a b = .ok () ↔ a = b ∧ NonZero a) ∧ compareBytes a b ≠ .panic := by
  rw [compareBytes_ok_iff, anyNonzero_iff]
  exact ⟨Iff.rfl, compareBytes_ne_panic a b⟩

/-- C62 for points: the comparison of two points of odd order on the curve succeeds exactly if they are the
same point. -/
theorem C62_compare_points (c : Curve) (hc : GoodCurve c) (P R : Point) (hP : OnCurve c P) (hR : OnCurve c R)
    (oP : Point.mul c P c.q = Point.identity) :
    comparePoints P R = .ok () ↔ P = R := by
  unfold comparePoints
  rw [compareBytes_ok_iff]
  constructor
  · exact fun h => encode_inj hc.field hP hR h.1
  · rintro rfl
    exact ⟨rfl, encode_nonzero hc hP oP⟩

example : compareBytes [0, 1] [0, 1] = .ok () ∧ compareBytes [0, 0] [0, 0] = .err .cryptographicViolation ∧
    compareBytes [1] [1, 2] = .err .cryptographicViolation := by decide
example : comparePoints ed448.G ed448.G = .ok () :=
  (C62_compare_points ed448 ed448_goodCurve _ _ ed448_base ed448_base ed448_order).mpr rfl

/-! ## C63 -/

/-- C63: a signature made by a generated identity key validates under its public key.  The hypotheses exclude
a nonce or response that is a multiple of `q`: such a signature is rejected. -/
theorem C63_eddsa (E : Env) (hc : GoodCurve E.curve) (rk m : Bytes)
    (h1 : ((EdDSAKeyPair.generate E rk).sign E m).r ≠ Point.identity.encode)
    (h2 : NonZero ((EdDSAKeyPair.generate E rk).sign E m).s) :
    edValidate E (EdDSAKeyPair.generate E rk).pub ((EdDSAKeyPair.generate E rk).sign E m) m = .ok () := by
  apply edValidate_sign hc _ rfl m h1
  intro h0
  obtain ⟨x, hx, hx0⟩ := h2
  have : ∀ (l : Bytes), leNat l = 0 → ∀ x ∈ l, x = 0 := by
    intro l
    induction l with
    | nil => simp
    | cons b l ih =>
      intro h x hx
      simp only [leNat] at h
      rcases List.mem_cons.mp hx with rfl | hx
      · apply UInt8.toNat_inj.mp
        show _ = 0
        omega
      · exact ih (by omega) x hx
  exact hx0 (this _ h0 x hx)

/-- C63 on the curve of the code. -/
theorem C63_eddsa_ed448 (E : Env) (hE : E.curve = ed448) (rk m : Bytes)
    (h1 : ((EdDSAKeyPair.generate E rk).sign E m).r ≠ Point.identity.encode)
    (h2 : NonZero ((EdDSAKeyPair.generate E rk).sign E m).s) :
    edValidate E (EdDSAKeyPair.generate E rk).pub ((EdDSAKeyPair.generate E rk).sign E m) m = .ok () :=
  C63_eddsa E (hE ▸ ed448_goodCurve) rk m h1 h2

/-- C63: the public key of a generated identity key is acceptable to peers unless it is the identity. -/
theorem C63_public_key_accepted (E : Env) (hc : GoodCurve E.curve) (rk : Bytes)
    (h : (EdDSAKeyPair.generate E rk).pub ≠ Point.identity) :
    Point.verify E.curve (EdDSAKeyPair.generate E rk).pub = .ok () :=
  (verify_iff (mulG_good hc _).1).mpr ⟨(mulG_good hc _).1, h, (mulG_good hc _).2⟩

example : ((EdDSAKeyPair.generate toyEnv [7]).sign toyEnv [1, 2]).r ≠ Point.identity.encode ∧
    NonZero ((EdDSAKeyPair.generate toyEnv [7]).sign toyEnv [1, 2]).s ∧
    (EdDSAKeyPair.generate toyEnv [7]).pub ≠ Point.identity := by
  refine ⟨by decide +kernel, anyNonzero_iff.mp (by decide +kernel), by decide +kernel⟩

/-! ## C64 -/

/-- C64: keys derived from one secret and two distinct public keys are mirrored. -/
theorem C64_mirrored (E : Env) (a b : Nat) (h : a ≠ b) (sec : Bytes) :
    ∃ ka kb, DataSecrets.derive E a b sec = .ok ka ∧ DataSecrets.derive E b a sec = .ok kb ∧
      ka.sendkey = kb.recvkey ∧ ka.recvkey = kb.sendkey ∧
      ka.senderMac E = kb.receiverMac E ∧ ka.receiverMac E = kb.senderMac E := by
  have lt : ∀ {x y : Nat}, x < y → DataSecrets.derive E x y sec = .ok ⟨(h1 E 2 sec).take 16, (h1 E 1 sec).take 16⟩ := by
    intro x y hxy
    simp [DataSecrets.derive, Nat.ne_of_lt hxy, Nat.not_lt_of_gt hxy]
  have gt : ∀ {x y : Nat}, y < x → DataSecrets.derive E x y sec = .ok ⟨(h1 E 1 sec).take 16, (h1 E 2 sec).take 16⟩ := by
    intro x y hxy
    simp [DataSecrets.derive, Nat.ne_of_gt hxy, hxy]
  rcases Nat.lt_or_gt_of_ne h with h1 | h1
  · exact ⟨_, _, lt h1, gt h1, rfl, rfl, rfl, rfl⟩
  · exact ⟨_, _, gt h1, lt h1, rfl, rfl, rfl, rfl⟩

/-- C64: both clients compute the same secret from each other's public key. -/
theorem C64_shared_secret (G : DHGroup) (a b : Nat) :
    (DH.Keypair.new G a).sharedSecret G (DH.Keypair.new G b).pub =
      (DH.Keypair.new G b).sharedSecret G (DH.Keypair.new G a).pub := by
  simp only [DH.Keypair.sharedSecret, DH.Keypair.new, DH.Keypair.newCustom, modpow]
  rw [← Nat.pow_mod, ← Nat.pow_mod, ← Nat.pow_mul, ← Nat.pow_mul, Nat.mul_comm]

/-- C64: the send and receive keys of one client come from different hash inputs. -/
example : ∃ k, DataSecrets.derive toyEnv 5 9 [1, 2] = .ok k ∧ k.sendkey ≠ k.recvkey :=
  ⟨_, rfl, by decide +kernel⟩

/-- C64 on the curve: both clients compute the same ECDH point. -/
theorem C64_shared_point (c : Curve) (hc : GoodCurve c) (a b : Nat) :
    Point.mul c (Point.mul c c.G b) a = Point.mul c (Point.mul c c.G a) b := by
  have := Fact.mk hc.field.prime
  have := hc.field.good
  obtain ⟨A, hA⟩ := OnCurve.rep hc.base
  exact (((hA.mul b).mul a).eq_iff ((hA.mul a).mul b)).mpr (smul_comm ..)

/-! ## C01 and C02 for keys, points, scalars and signatures -/

/-- C01: DSA public keys that the library accepts. -/
theorem C01_public_key_roundtrip (E : Env) :
    RoundTrip (fun k : DSAPublicKey => E.dsaKeyOk k.p k.q k.g k.y = true ∧ 2 ^ 159 ≤ k.q ∧ k.q < 2 ^ 160 ∧
      FitsMpi k.p ∧ FitsMpi k.g ∧ FitsMpi k.y) wPublicKey (readPublicKey E) := by
  rintro k ⟨h1, h2, h3, h4, h5, h6⟩ rest
  have hb : bits k.q = 160 := by
    unfold bits
    rw [if_neg (by omega)]
    have := (Nat.log2_eq_iff (n := k.q) (k := 159) (by omega)).mpr ⟨h2, h3⟩
    omega
  have fit : ∀ {v}, FitsMpi v → mpiOk v = true := by
    rintro v ⟨n, hn, hv⟩
    have := byteLen_le_of_lt_pow hv
    simp [mpiOk]
    omega
  have h7 : FitsMpi k.q := ⟨20, by decide, Nat.lt_of_lt_of_le h3 (by decide)⟩
  unfold readPublicKey wPublicKey
  simp only [List.append_assoc]
  rw [Dec.bind_ok (readU16_w 0 _), if_neg (by simp), Dec.bind_ok (readMpi_w (fit h4) _),
    Dec.bind_ok (readMpi_w (fit h7) _), Dec.bind_ok (readMpi_w (fit h5) _), Dec.bind_ok (readMpi_w (fit h6) _)]
  simp [DSAPublicKey.fromComponents, hb, h1, Dec.lift]

example : toyEnv.dsaKeyOk 7 (2 ^ 159 + 1) 3 5 = true ∧ 2 ^ 159 ≤ 2 ^ 159 + 1 ∧ 2 ^ 159 + 1 < 2 ^ 160 ∧
    FitsMpi 7 ∧ FitsMpi 3 ∧ FitsMpi 5 :=
  ⟨rfl, by decide, by decide, ⟨1, by decide⟩, ⟨1, by decide⟩, ⟨1, by decide⟩⟩

/-- C01: DSA signatures (two positive numbers of 160 bits) and EdDSA signatures (two 57-byte strings). -/
theorem C01_signature_roundtrip :
    RoundTrip (fun s : DSASignature => 0 < s.r ∧ s.r < 2 ^ 160 ∧ 0 < s.s ∧ s.s < 2 ^ 160)
      wDsaSignature readDsaSignature ∧
    RoundTrip (fun s : EdSignature => s.r.length = 57 ∧ s.s.length = 57) wEdSignature readEdSignature := by
  constructor
  · rintro s ⟨h1, h2, h3, h4⟩ rest
    unfold readDsaSignature wDsaSignature
    rw [List.append_assoc, Dec.bind_ok (readN_append (by simp) _), Dec.bind_ok (readN_append (by simp) _),
      beNat_beBytes_of_lt (Nat.lt_of_lt_of_le h2 (by decide)), beNat_beBytes_of_lt (Nat.lt_of_lt_of_le h4 (by decide)),
      DSASignature.from, if_neg (by omega)]
    rfl
  · rintro s ⟨h1, h2⟩ rest
    unfold readEdSignature wEdSignature
    rw [List.append_assoc, Dec.bind_ok (readN_append h1 _), Dec.bind_ok (readN_append h2 _)]
    rfl

example : readDsaSignature (wDsaSignature ⟨5, 2 ^ 160 - 1⟩ ++ [9]) = .ok (⟨5, 2 ^ 160 - 1⟩, [9]) :=
  C01_signature_roundtrip.1 _ (by decide) _

/-- C01: points of the curve, non-zero scalars, and ring signatures without zero scalars. -/
theorem C01_point_scalar_ring_roundtrip (c : Curve) (hc : GoodCurve c) :
    RoundTrip (OnCurve c) wPoint (readPoint c) ∧
    RoundTrip (fun s => 0 < s ∧ s < c.q) wScalar (readScalar c) ∧
    RoundTrip (fun s : RingSignature => ∀ v ∈ [s.c1, s.r1, s.c2, s.r2, s.c3, s.r3], 0 < v ∧ v < c.q)
      wRing (readRing c) := by
  have hs : RoundTrip (fun s => 0 < s ∧ s < c.q) wScalar (readScalar c) :=
    fun s h rest => readScalar_w hc.fits (by omega) h.2 rest
  refine ⟨fun P hP rest => readPoint_w hc.field hP rest, hs, ?_⟩
  intro s h rest
  simp only [List.mem_cons, List.not_mem_nil, or_false, forall_eq_or_imp, forall_eq] at h
  obtain ⟨a1, a2, a3, a4, a5, a6⟩ := h
  unfold readRing wRing
  simp only [List.append_assoc]
  rw [Dec.bind_ok (hs _ a1 _), Dec.bind_ok (hs _ a2 _), Dec.bind_ok (hs _ a3 _), Dec.bind_ok (hs _ a4 _),
    Dec.bind_ok (hs _ a5 _), Dec.bind_ok (hs _ a6 _)]
  rfl

example : OnCurve toyCurve ⟨36, 12⟩ ∧ ∀ v ∈ [1, 12, 3, 4, 5, 6], 0 < v ∧ v < toyCurve.q :=
  ⟨⟨by decide, by decide, by decide⟩, by decide⟩

/-- C02: readers of DSA keys, DSA and EdDSA signatures and points. -/
theorem C02_key_readers_total (E : Env) :
    TotalPrefixReader (readPublicKey E) ∧ TotalPrefixReader readDsaSignature ∧
    TotalPrefixReader readEdSignature ∧ TotalPrefixReader (readPoint E.curve) := by
  refine ⟨?_, ?_, ?_, readPoint_safe _⟩
  · refine readU16_safe.bind fun _ => .ite (.fail _) ?_
    refine readMpi_safe.bind fun p => readMpi_safe.bind fun q => readMpi_safe.bind fun g =>
      readMpi_safe.bind fun y => .lift ?_
    unfold DSAPublicKey.fromComponents
    split
    · simp
    · split <;> simp
  · refine (readN_safe 20).bind fun r => (readN_safe 20).bind fun s => .lift ?_
    unfold DSASignature.from
    split <;> simp
  · exact (readN_safe 57).bind fun r => (readN_safe 57).bind fun s => .pure _

/-- C02 is false of the code for scalars: 57 zero bytes panic, whatever follows. -/
theorem C02_violated_scalar (c : Curve) (rest : Bytes) :
    readScalar c (List.replicate 57 0 ++ rest) = .panic := by
  unfold readScalar
  rw [Dec.bind_ok (readN_append (by simp) rest)]
  rfl

/-- C02 for scalars, as far as it holds: nothing but 57 zero bytes makes the reader panic, and when it
succeeds it has consumed 57 bytes, reduced modulo `q`. -/
theorem C02_scalar_partial (c : Curve) (s : Bytes) :
    (readScalar c s = .panic → s.take 57 = List.replicate 57 0) ∧
    ∀ v s', readScalar c s = .ok (v, s') → s = s.take 57 ++ s' ∧ (s.take 57).length = 57 ∧
      v = leNat (s.take 57) % c.q := by
  unfold readScalar
  rw [Dec.bind_run]
  unfold readN
  by_cases hl : s.length < 57
  · simp [hl]
  · simp only [hl, if_false]
    unfold decodeScalar
    split
    · refine ⟨by simp [Dec.lift], ?_⟩
      intro v s' h
      simp only [Dec.lift_run_ok, Res.ok.injEq, Prod.mk.injEq] at h
      obtain ⟨rfl, rfl⟩ := h
      exact ⟨(List.take_append_drop 57 s).symm, by simp; omega, rfl⟩
    · rename_i hz
      refine ⟨fun _ => ?_, by simp [Dec.lift]⟩
      have hz' : allZero (s.take 57) = true := by simpa [anyNonzero] using hz
      rw [allZero_iff] at hz'
      rw [List.eq_replicate_iff]
      exact ⟨by simp; omega, hz'⟩

example : readScalar toyCurve (List.replicate 57 1 ++ [7]) = .ok (leNat (List.replicate 57 1) % 13, [7]) := by
  decide +kernel

end Otrr.Props
