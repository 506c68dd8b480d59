import Verif.Lemmas.SmpSteps
/-!
A complete exchange of SMP in OTRv3 between two clients.
-/

namespace Otrr
open Spec

namespace SMP

theorem fits_of_lt {v p : Nat} (h : v < p) (hp : FitsMpi p) : FitsMpi v := by
  obtain ⟨k, h1, h2⟩ := hp
  exact ⟨k, h1, by omega⟩

theorem fits_hash {E : Env} {d : Bytes} : FitsMpi (beNat (E.sha256 d)) := by
  have := beNat_lt (E.sha256 d)
  rw [E.sha256_len] at this
  exact ⟨32, by omega, this⟩

theorem modpow_modpow (b x y p : Nat) : modpow (modpow b x p) y p = modpow b (x * y) p := by
  rw [modpow, modpow, modpow, ← Nat.pow_mod, ← pow_mul]

theorem readMessage1_plain {ms : List Nat} (hl : ms.length = 6) (h : ∀ m ∈ ms, mpiOk m) :
    readMessage1 ⟨T1, wMpiSequence ms⟩ = .ok ([], ms) := by
  have := readMpiSequence_w (by omega : ms.length < 2 ^ 32) h []
  rw [List.append_nil] at this
  simp [readMessage1, T1, T1Q, runDec, Dec.bind_run, this, hl, decDone]

theorem readMessage1_question {ms : List Nat} {q : Bytes} (hq : ∀ b ∈ q, b ≠ 0) (hl : ms.length = 6)
    (h : ∀ m ∈ ms, mpiOk m) : readMessage1 ⟨T1Q, wNullTerminated q ++ wMpiSequence ms⟩ = .ok (q, ms) := by
  have := readMpiSequence_w (by omega : ms.length < 2 ^ 32) h []
  rw [List.append_nil] at this
  simp [readMessage1, T1Q, runDec, Dec.bind_run, readNullTerminated_w hq, this, hl, decDone]

theorem numbers_question {ms : List Nat} {q : Bytes} (hq : ∀ b ∈ q, b ≠ 0) (hl : ms.length = 6)
    (h : ∀ m ∈ ms, mpiOk m) : numbers ⟨7, wNullTerminated q ++ wMpiSequence ms⟩ = .ok ms := by
  have h1 := readMessage1_question hq hl h
  rcases readMessage1_cases ⟨T1Q, wNullTerminated q ++ wMpiSequence ms⟩ with ⟨ms', h2, h3, _⟩ | h2 | h2
  · rw [h1] at h2; have := (Prod.mk.inj (Res.ok.inj h2)).2; subst this; exact h3
  · rw [h1] at h2; cases h2
  · rw [h1] at h2; cases h2

section run
variable {E : Env}

theorem hash1_fits (v : UInt8) (m : Nat) : FitsMpi (hash1 E v m) := fits_hash
theorem hash2_fits (v : UInt8) (m n : Nat) : FitsMpi (hash2 E v m n) := fits_hash

variable (hG : SmpGroup E.dh)
include hG

theorem modpow_lt (b e : Nat) : modpow b e E.dh.p < E.dh.p := Nat.mod_lt _ hG.prime.pos
theorem pow2_lt (a x b y : Nat) : pow2 E.dh a x b y < E.dh.p := Nat.mod_lt _ hG.prime.pos
theorem pow3_lt (a x b y c z : Nat) : pow3 E.dh a x b y c z < E.dh.p := Nat.mod_lt _ hG.prime.pos

theorem modpow_fits (b e : Nat) : FitsMpi (modpow b e E.dh.p) :=
  fits_of_lt (Nat.mod_lt _ hG.prime.pos) hG.fits
theorem pow2_fits (a x b y : Nat) : FitsMpi (pow2 E.dh a x b y) :=
  fits_of_lt (Nat.mod_lt _ hG.prime.pos) hG.fits
theorem response_fits (r a c : Nat) : FitsMpi (response E.dh r a c) :=
  fits_of_lt ((Nat.mod_lt _ hG.prime_q.pos).trans hG.q_lt) hG.fits

theorem values1_ok (a2 a3 r2 r3 : Nat) : ∀ m ∈ values1 E a2 a3 r2 r3, mpiOk m := by
  intro m hm
  apply fits_mpiOk
  simp only [values1, List.mem_cons, List.not_mem_nil, or_false] at hm
  rcases hm with h | h | h | h | h | h <;> subst h
  all_goals first | exact modpow_fits hG _ _ | exact hash1_fits _ _ | exact response_fits hG _ _ _

theorem values2_ok (g2 g3 y : Nat) (e : Exps2) : ∀ m ∈ values2 E g2 g3 y e, mpiOk m := by
  intro m hm
  apply fits_mpiOk
  simp only [values2, List.mem_cons, List.not_mem_nil, or_false] at hm
  rcases hm with h | h | h | h | h | h | h | h | h | h | h <;> subst h
  all_goals first | exact modpow_fits hG _ _ | exact hash1_fits _ _ | exact hash2_fits _ _ _ |
    exact response_fits hG _ _ _ | exact pow2_fits hG _ _ _ _

theorem values3_ok (g2 g3 x a3 k : Nat) (e : Exps3) : ∀ m ∈ values3 E g2 g3 x a3 k e, mpiOk m := by
  intro m hm
  apply fits_mpiOk
  simp only [values3, List.mem_cons, List.not_mem_nil, or_false] at hm
  rcases hm with h | h | h | h | h | h | h | h <;> subst h
  all_goals first | exact modpow_fits hG _ _ | exact hash1_fits _ _ | exact hash2_fits _ _ _ |
    exact response_fits hG _ _ _ | exact pow2_fits hG _ _ _ _

theorem values4_ok (k b3 r7 : Nat) : ∀ m ∈ values4 E k b3 r7, mpiOk m := by
  intro m hm
  apply fits_mpiOk
  simp only [values4, List.mem_cons, List.not_mem_nil, or_false] at hm
  rcases hm with h | h | h <;> subst h
  all_goals first | exact modpow_fits hG _ _ | exact hash2_fits _ _ _ | exact response_fits hG _ _ _

/-- An honest proof of knowledge is accepted. -/
theorem honest_log (r a c : Nat) :
    pow2 E.dh E.dh.g (response E.dh r a c) (modpow E.dh.g a E.dh.p) c = modpow E.dh.g r E.dh.p := by
  apply eq_of_cast (pow2_lt hG _ _ _ _) (modpow_lt hG _ _)
  rw [cast_pow2, cast_modpow, cast_modpow, response_spec hG.prime_q.pos hG.gq]

theorem honest_base {k : Nat} (hk : (k : ZMod E.dh.p) ^ E.dh.q = 1) (r a c : Nat) :
    pow2 E.dh k (response E.dh r a c) (modpow k a E.dh.p) c = modpow k r E.dh.p := by
  apply eq_of_cast (pow2_lt hG _ _ _ _) (modpow_lt hG _ _)
  rw [cast_pow2, cast_modpow, cast_modpow, response_spec hG.prime_q.pos hk]

theorem honest_pair {g2 : Nat} (h2 : (g2 : ZMod E.dh.p) ^ E.dh.q = 1) (r4 r5 r6 y c : Nat) :
    pow3 E.dh E.dh.g (response E.dh r5 r4 c) g2 (response E.dh r6 y c) (pow2 E.dh E.dh.g r4 g2 y) c =
      pow2 E.dh E.dh.g r5 g2 r6 := by
  apply eq_of_cast (pow3_lt hG _ _ _ _ _ _) (pow2_lt hG _ _ _ _)
  rw [cast_pow3, cast_pow2, cast_pow2]
  have h3 := response_spec (h := (E.dh.g : ZMod E.dh.p)) hG.prime_q.pos hG.gq r5 r4 c
  have h4 := response_spec (h := (g2 : ZMod E.dh.p)) hG.prime_q.pos h2 r6 y c
  rw [← h3, ← h4, mul_pow]
  ring

theorem gen_pow (n : Nat) : ((modpow E.dh.g n E.dh.p : Nat) : ZMod E.dh.p) ^ E.dh.q = 1 := by
  rw [cast_modpow, hG.pow_q]

theorem honest_check1 {a2 a3 r2 r3 : Nat} (h : Proper1 E.dh (values1 E a2 a3 r2 r3)) :
    ∃ c2 D2 c3 D3, values1 E a2 a3 r2 r3 = [modpow E.dh.g a2 E.dh.p, c2, D2, modpow E.dh.g a3 E.dh.p, c3, D3] ∧
      check1 E (modpow E.dh.g a2 E.dh.p) c2 D2 (modpow E.dh.g a3 E.dh.p) c3 D3 = .ok () := by
  refine ⟨_, _, _, _, rfl, check1_ok.mpr ⟨h, ?_, ?_⟩⟩ <;> rw [provesLog_iff, honest_log hG]

theorem honest_check2 {a2 a3 y : Nat} {e : Exps2}
    (h : Proper2 E.dh (values2 E (modpow E.dh.g (a2 * e.b2) E.dh.p) (modpow E.dh.g (a3 * e.b3) E.dh.p) y e)) :
    ∃ c2 D2 c3 D3 cP D5 D6,
      values2 E (modpow E.dh.g (a2 * e.b2) E.dh.p) (modpow E.dh.g (a3 * e.b3) E.dh.p) y e =
        [modpow E.dh.g e.b2 E.dh.p, c2, D2, modpow E.dh.g e.b3 E.dh.p, c3, D3,
          modpow (modpow E.dh.g (a3 * e.b3) E.dh.p) e.r4 E.dh.p,
          pow2 E.dh E.dh.g e.r4 (modpow E.dh.g (a2 * e.b2) E.dh.p) y, cP, D5, D6] ∧
      check2 E a2 a3 (modpow E.dh.g e.b2 E.dh.p) c2 D2 (modpow E.dh.g e.b3 E.dh.p) c3 D3
        (modpow (modpow E.dh.g (a3 * e.b3) E.dh.p) e.r4 E.dh.p)
        (pow2 E.dh E.dh.g e.r4 (modpow E.dh.g (a2 * e.b2) E.dh.p) y) cP D5 D6 = .ok () := by
  refine ⟨_, _, _, _, _, _, _, rfl, check2_ok.mpr ⟨h, ?_, ?_, ?_⟩⟩
  · rw [provesLog_iff, honest_log hG]
  · rw [provesLog_iff, honest_log hG]
  · rw [← provesPQ_mod, modpow_modpow, modpow_modpow, Nat.mul_comm e.b2, Nat.mul_comm e.b3, provesPQ_iff,
      honest_base hG (gen_pow hG _), honest_pair hG (gen_pow hG _)]

theorem honest_check3 {m n x a3 k : Nat} {e : Exps3}
    (h : Proper3 E.dh (values3 E (modpow E.dh.g m E.dh.p) (modpow E.dh.g n E.dh.p) x a3 k e))
    (hk : (k : ZMod E.dh.p) ^ E.dh.q = 1) :
    ∃ cP D5 D6 cR D7,
      values3 E (modpow E.dh.g m E.dh.p) (modpow E.dh.g n E.dh.p) x a3 k e =
        [modpow (modpow E.dh.g n E.dh.p) e.r4 E.dh.p, pow2 E.dh E.dh.g e.r4 (modpow E.dh.g m E.dh.p) x, cP, D5, D6,
          modpow k a3 E.dh.p, cR, D7] ∧
      check3 E (modpow E.dh.g m E.dh.p) (modpow E.dh.g n E.dh.p) (modpow (modpow E.dh.g n E.dh.p) e.r4 E.dh.p)
        (pow2 E.dh E.dh.g e.r4 (modpow E.dh.g m E.dh.p) x) cP D5 D6 (modpow k a3 E.dh.p) D7 = .ok () ∧
      DH.verify cR (hash2 E 7 (pow2 E.dh E.dh.g D7 (modpow E.dh.g a3 E.dh.p) cR)
        (pow2 E.dh k D7 (modpow k a3 E.dh.p) cR)) = .ok () := by
  refine ⟨_, _, _, _, _, rfl, check3_ok.mpr ⟨h, ?_⟩, ?_⟩
  · rw [provesPQ_iff, honest_base hG (gen_pow hG _), honest_pair hG (gen_pow hG _)]
  · rw [honest_log hG, honest_base hG hk, verify_ok]

/-- The result of the comparison. -/
def outcome (E : Env) (x y : Nat) : SMPStatus := if x % E.dh.q = y % E.dh.q then .completed else .aborted

/-- A complete exchange, between clients whose secrets, fingerprints and SSIDs may differ, the types of its TLVs, and the contexts at the end.  The conditions that all numbers sent are in range are
met but with negligible probability. -/
theorem run3_any {hostA hostB hostA3 hostB4 hostA5 : SMPHost} {kA kB : DSAPublicKey} {A B : SMPContext} {q sA sB : Bytes}
    (hkA : hostA.key = some kA) (hkB : hostB.key = some kB) (hA : A.state = .expect1) (hB : B.state = .expect1)
    (hq : ∀ b ∈ q, b ≠ 0) (hans : hostB.secret q = some sB)
    {x y : Nat}
    (hx' : computeSecret E (fingerprint3 E kA) A.their A.ssid sA = x)
    (hy' : computeSecret E B.their (fingerprint3 E kB) B.ssid sB = y) (r1 r2 r3 r4 r5 : Rand) :
    ∃ m1 A1 v1, start E hostA sA q r1 A = (.ok m1, A1) ∧ A1.status = .inProgress ∧ isSmpTlv m1 = true ∧ numbers m1 = .ok v1 ∧ (Proper1 E.dh v1 →
    ∃ m2 B1 v2, handle E hostB m1 r2 B = (.ok (some m2), B1) ∧ B1.status = .inProgress ∧ isSmpTlv m2 = true ∧ numbers m2 = .ok v2 ∧
      (Proper2 E.dh v2 →
    ∃ m3 A2 v3, handle E hostA3 m2 r3 A1 = (.ok (some m3), A2) ∧ A2.status = .inProgress ∧ isSmpTlv m3 = true ∧ numbers m3 = .ok v3 ∧
      (Proper3 E.dh v3 →
    ∃ m4 B2 v4, handle E hostB4 m3 r4 B1 = (.ok (some m4), B2) ∧
      B2.status = outcome E x y ∧
      B2.state = .expect1 ∧ B2.ssid = B.ssid ∧ B2.their = B.their ∧ isSmpTlv m4 = true ∧ numbers m4 = .ok v4 ∧ (Proper4 E.dh v4 →
    ∃ A3, handle E hostA5 m4 r5 A2 = (.ok .none, A3) ∧
      A3.status = outcome E x y ∧
      A3.state = .expect1 ∧ A3.ssid = A.ssid ∧ A3.their = A.their)))) := by
  have := Fact.mk hG.prime
  let m1 : TLV := if q.isEmpty then ⟨T1, wMpiSequence (values1 E (random E r1 0) (random E r1 1) (random E r1 2) (random E r1 3))⟩
    else ⟨T1Q, wNullTerminated q ++ wMpiSequence (values1 E (random E r1 0) (random E r1 1) (random E r1 2) (random E r1 3))⟩
  have hm1 : readMessage1 m1 = .ok (q, values1 E (random E r1 0) (random E r1 1) (random E r1 2) (random E r1 3)) ∧
      numbers m1 = .ok (values1 E (random E r1 0) (random E r1 1) (random E r1 2) (random E r1 3)) ∧
      (m1.typ = T1 ∨ m1.typ = T1Q) := by
    cases q with
    | nil =>
      exact ⟨readMessage1_plain rfl (values1_ok hG _ _ _ _), numbers_w (by decide) (by simp [values1]) (values1_ok hG _ _ _ _), .inl rfl⟩
    | cons b q =>
      exact ⟨readMessage1_question hq rfl (values1_ok hG _ _ _ _), numbers_question hq rfl (values1_ok hG _ _ _ _), .inr rfl⟩
  have hst : start E hostA sA q r1 A =
      (.ok m1, { A with status := .inProgress, state := .expect2 x (random E r1 0) (random E r1 1) }) := by
    simp only [start, hA, hkA, hx', m1]
  generalize random E r1 0 = a2 at *
  generalize random E r1 1 = a3 at *
  generalize random E r1 2 = ρ2 at *
  generalize random E r1 3 = ρ3 at *
  generalize m1 = m1 at *
  refine ⟨m1, _, _, hst, rfl, by rcases hm1.2.2 with h | h <;> simp [isSmpTlv, h], hm1.2.1, fun p1 => ?_⟩
  clear hst
  obtain ⟨c2, D2, c3, D3, e1, hc1⟩ := honest_check1 hG p1
  rw [e1] at p1
  simp only [Proper1] at p1
  have n2 := elem_ne_one hG p1.1
  have n3 := elem_ne_one hG p1.2.1
  rw [cast_modpow] at n2 n3
  -- message 2
  have hh1 : handle E hostB m1 r2 B = (.ok (some (after1 E kB sB (modpow E.dh.g a2 E.dh.p) (modpow E.dh.g a3 E.dh.p) r2 B).1),
      (after1 E kB sB (modpow E.dh.g a2 E.dh.p) (modpow E.dh.g a3 E.dh.p) r2 B).2) := by
    have : dispatch E hostB m1 r2 B = .ok (after1 E kB sB (modpow E.dh.g a2 E.dh.p) (modpow E.dh.g a3 E.dh.p) r2 B) := by
      rw [dispatch, if_pos hm1.2.2, handle1]
      simp only [hB, hm1.1, Res.bind_ok, e1, hc1, hans, hkB]
      rfl
    rw [handle, this]
  simp only [after1, modpow_modpow E.dh.g a2, modpow_modpow E.dh.g a3, hy'] at hh1
  generalize Exps2.draw E r2 = e at hh1
  refine ⟨_, _, _, hh1, rfl, rfl, numbers_w (by decide) (by simp [values2]) (values2_ok hG _ _ _ _), fun p2 => ?_⟩
  clear hh1 hm1
  obtain ⟨c2', D2', c3', D3', cP, D5, D6, e2, hc2⟩ := honest_check2 hG p2
  have hr2 : readNumbers 11 ⟨T2, wMpiSequence (values2 E (modpow E.dh.g (a2 * e.b2) E.dh.p) (modpow E.dh.g (a3 * e.b3) E.dh.p) y e)⟩ =
      .ok (values2 E (modpow E.dh.g (a2 * e.b2) E.dh.p) (modpow E.dh.g (a3 * e.b3) E.dh.p) y e) := by
    have := readMpiSequence_w (by simp [values2]) (values2_ok hG (modpow E.dh.g (a2 * e.b2) E.dh.p) (modpow E.dh.g (a3 * e.b3) E.dh.p) y e) []
    rw [List.append_nil] at this
    simp only [readNumbers, runDec, this, Res.bind_ok]
    rfl
  rw [e2] at p2
  simp only [Proper2] at p2
  have n2' := elem_ne_one hG p2.1
  have n3' := elem_ne_one hG p2.2.1
  rw [cast_modpow] at n2' n3'
  have hP0 := elem_ne_zero hG p2.2.2.1
  have hQ0 := elem_ne_zero hG p2.2.2.2.1
  generalize hPb : modpow (modpow E.dh.g (a3 * e.b3) E.dh.p) e.r4 E.dh.p = Pb at *
  generalize hQb : pow2 E.dh E.dh.g e.r4 (modpow E.dh.g (a2 * e.b2) E.dh.p) y = Qb at *
  -- message 3
  obtain ⟨k, k1, k2, k3⟩ := div_ok hG (pow2 E.dh E.dh.g (Exps3.draw E r3).r4 (modpow E.dh.g (a2 * e.b2) E.dh.p) x) hQ0
  obtain ⟨l, l1, l2, l3⟩ := div_ok hG (modpow (modpow E.dh.g (a3 * e.b3) E.dh.p) (Exps3.draw E r3).r4 E.dh.p) hP0
  have hh2 : handle E hostA3 ⟨T2, wMpiSequence (values2 E (modpow E.dh.g (a2 * e.b2) E.dh.p) (modpow E.dh.g (a3 * e.b3) E.dh.p) y e)⟩ r3
      { A with status := .inProgress, state := .expect2 x a2 a3 } =
      (.ok (some ⟨T3, wMpiSequence (values3 E (modpow E.dh.g (a2 * e.b2) E.dh.p) (modpow E.dh.g (a3 * e.b3) E.dh.p) x a3 k (Exps3.draw E r3))⟩),
       { A with status := .inProgress, state := .expect4 (modpow E.dh.g e.b3 E.dh.p) l k a3 }) := by
    have : dispatch E hostA3 ⟨T2, wMpiSequence (values2 E (modpow E.dh.g (a2 * e.b2) E.dh.p) (modpow E.dh.g (a3 * e.b3) E.dh.p) y e)⟩ r3
      { A with status := .inProgress, state := .expect2 x a2 a3 } = .ok
      (⟨T3, wMpiSequence (values3 E (modpow E.dh.g (a2 * e.b2) E.dh.p) (modpow E.dh.g (a3 * e.b3) E.dh.p) x a3 k (Exps3.draw E r3))⟩,
       { A with status := .inProgress, state := .expect4 (modpow E.dh.g e.b3 E.dh.p) l k a3 }) := by
      rw [dispatch, if_neg (show ¬ (T2 = T1 ∨ T2 = T1Q) by decide), if_pos rfl, handle2]
      simp only [hr2, Res.bind_ok]
      have q2 : modpow (modpow E.dh.g e.b2 E.dh.p) a2 E.dh.p = modpow E.dh.g (a2 * e.b2) E.dh.p := by
        rw [modpow_modpow, Nat.mul_comm]
      have q3 : modpow (modpow E.dh.g e.b3 E.dh.p) a3 E.dh.p = modpow E.dh.g (a3 * e.b3) E.dh.p := by
        rw [modpow_modpow, Nat.mul_comm]
      simp only [e2, Res.bind_ok, hc2, q2, q3]
      simp only [k1, l1, Res.bind_ok]
    rw [handle, this]
  have hk : (k : ZMod E.dh.p) ^ E.dh.q = 1 := by
    have h := congrArg (· ^ E.dh.q) k3
    simp only [mul_pow] at h
    have hb : (Qb : ZMod E.dh.p) ^ E.dh.q = 1 := by
      rw [← hQb, cast_pow2, mul_pow, cast_modpow, ← pow_mul _ _ y, hG.pow_q, hG.pow_q, one_mul]
    rw [hb, mul_one, cast_pow2, mul_pow, cast_modpow, ← pow_mul _ _ x, hG.pow_q, hG.pow_q, one_mul] at h
    exact h
  have hv3 := values3_ok hG (modpow E.dh.g (a2 * e.b2) E.dh.p) (modpow E.dh.g (a3 * e.b3) E.dh.p) x a3 k (Exps3.draw E r3)
  have hr3 : readNumbers 8 ⟨T3, wMpiSequence (values3 E (modpow E.dh.g (a2 * e.b2) E.dh.p) (modpow E.dh.g (a3 * e.b3) E.dh.p) x a3 k (Exps3.draw E r3))⟩ =
      .ok (values3 E (modpow E.dh.g (a2 * e.b2) E.dh.p) (modpow E.dh.g (a3 * e.b3) E.dh.p) x a3 k (Exps3.draw E r3)) := by
    have := readMpiSequence_w (by simp [values3]) hv3 []
    rw [List.append_nil] at this
    simp only [readNumbers, runDec, this, Res.bind_ok]
    rfl
  generalize Exps3.draw E r3 = f at *
  refine ⟨_, _, _, hh2, rfl, rfl, numbers_w (by decide) (by simp [values3]) hv3, fun p3 => ?_⟩
  clear hh2
  obtain ⟨cP', D5', D6', cR, D7, e3, hc3, hcR⟩ := honest_check3 hG p3 hk
  have hnm : (E.dh.g : ZMod E.dh.p) ^ ((a2 * e.b2) * (a3 * e.b3)) ≠ 1 :=
    pow_mul_ne_one hG (pow_mul_ne_one hG n2 n2') (pow_mul_ne_one hG n3 n3')
  have hfin : (l : ZMod E.dh.p) = (k : ZMod E.dh.p) ^ (a3 * e.b3) ↔ x % E.dh.q = y % E.dh.q := by
    rw [← cancel_exp hG hnm]
    refine final_iff hG (s := f.r4) (t := e.r4) rfl ?_ rfl ?_ (k3.trans ?_) (l3.trans ?_)
    · rw [← hPb, cast_modpow, cast_modpow]
    · rw [← hQb, cast_pow2, cast_modpow]
    · rw [cast_pow2, cast_modpow]
    · rw [cast_modpow, cast_modpow]
  have hcmp : l = modpow (modpow k a3 E.dh.p) e.b3 E.dh.p ↔ x % E.dh.q = y % E.dh.q := by
    rw [← hfin]
    constructor
    · intro h
      have := congrArg (Nat.cast : Nat → ZMod E.dh.p) h
      rwa [modpow_modpow, cast_modpow] at this
    · intro h
      apply eq_of_cast l2 (modpow_lt hG _ _)
      rw [cast_modpow, cast_modpow, h, pow_mul]
  have hcmp' : l = modpow (modpow k e.b3 E.dh.p) a3 E.dh.p ↔ x % E.dh.q = y % E.dh.q := by
    rw [← hcmp, modpow_modpow, modpow_modpow, Nat.mul_comm]
  -- message 4
  have hv4 := values4_ok hG k e.b3 (random E r4 0)
  have hd3 : dispatch E hostB4 ⟨T3, wMpiSequence (values3 E (modpow E.dh.g (a2 * e.b2) E.dh.p) (modpow E.dh.g (a3 * e.b3) E.dh.p) x a3 k f)⟩ r4
      ⟨.inProgress, .expect3 (modpow E.dh.g a3 E.dh.p) (modpow E.dh.g (a2 * e.b2) E.dh.p)
        (modpow E.dh.g (a3 * e.b3) E.dh.p) e.b3 Pb Qb, B.ssid, B.their⟩ =
      .err (if x % E.dh.q = y % E.dh.q then .smpSuccess (some (reply4 E k e.b3 r4)) else .smpFailed (some (reply4 E k e.b3 r4))) := by
    rw [dispatch, if_neg (show ¬ (T3 = T1 ∨ T3 = T1Q) by decide), if_neg (show ¬ T3 = T2 by decide), if_pos rfl, handle3]
    simp only [hr3, Res.bind_ok]
    simp only [e3, Res.bind_ok, hc3, k1, l1, hcR, hcmp]
    split <;> rfl
  have hr4 : readNumbers 3 (reply4 E k e.b3 r4) = .ok (values4 E k e.b3 (random E r4 0)) := by
    have := readMpiSequence_w (by simp [values4]) hv4 []
    rw [List.append_nil] at this
    simp only [readNumbers, reply4, runDec, this, Res.bind_ok]
    rfl
  have hd4 : Proper4 E.dh (values4 E k e.b3 (random E r4 0)) → dispatch E hostA5 (reply4 E k e.b3 r4) r5
      { A with status := .inProgress, state := .expect4 (modpow E.dh.g e.b3 E.dh.p) l k a3 } =
      .err (if x % E.dh.q = y % E.dh.q then .smpSuccess .none else .smpFailed .none) := by
    intro p4
    have t4 : (reply4 E k e.b3 r4).typ = T4 := rfl
    rw [dispatch, t4, if_neg (show ¬ (T4 = T1 ∨ T4 = T1Q) by decide), if_neg (show ¬ T4 = T2 by decide),
      if_neg (show ¬ T4 = T3 by decide), if_pos rfl, handle4]
    simp only [values4, Proper4] at p4
    simp only [hr4, Res.bind_ok, values4, exponent_ok.mpr p4.2, element_ok.mpr p4.1, honest_log hG, honest_base hG hk,
      verify_ok.mpr, hcmp']
    split <;> rfl
  refine ⟨reply4 E k e.b3 r4, { B with status := outcome E x y, state := .expect1 }, _, ?_, rfl, rfl, rfl, rfl, rfl,
    numbers_w (by decide) (by simp [values4]) hv4, fun p4 => ⟨{ A with status := outcome E x y, state := .expect1 }, ?_, rfl, rfl, rfl, rfl⟩⟩
  · rw [handle, hd3]
    by_cases hxy : x % E.dh.q = y % E.dh.q
    · simp only [hxy, if_true, outcome]
    · simp only [hxy, if_false, outcome]
  · rw [handle, hd4 p4]
    by_cases hxy : x % E.dh.q = y % E.dh.q
    · simp only [hxy, if_true, outcome]
    · simp only [hxy, if_false, outcome]

/-- A complete exchange, with secrets that may differ, the types of its TLVs, and the contexts at the end.  The conditions that all numbers sent are in range are
met but with negligible probability. -/
theorem run3_types {hostA hostB hostA3 hostB4 hostA5 : SMPHost} {kA kB : DSAPublicKey} {A B : SMPContext} {q sA sB : Bytes}
    (hkA : hostA.key = some kA) (hkB : hostB.key = some kB) (hA : A.state = .expect1) (hB : B.state = .expect1)
    (hs : A.ssid = B.ssid) (hq : ∀ b ∈ q, b ≠ 0) (hans : hostB.secret q = some sB)
    (hA' : A.their = fingerprint3 E kB) (hB' : B.their = fingerprint3 E kA) (r1 r2 r3 r4 r5 : Rand) :
    ∃ m1 A1 v1, start E hostA sA q r1 A = (.ok m1, A1) ∧ A1.status = .inProgress ∧ isSmpTlv m1 = true ∧ numbers m1 = .ok v1 ∧ (Proper1 E.dh v1 →
    ∃ m2 B1 v2, handle E hostB m1 r2 B = (.ok (some m2), B1) ∧ B1.status = .inProgress ∧ isSmpTlv m2 = true ∧ numbers m2 = .ok v2 ∧
      (Proper2 E.dh v2 →
    ∃ m3 A2 v3, handle E hostA3 m2 r3 A1 = (.ok (some m3), A2) ∧ A2.status = .inProgress ∧ isSmpTlv m3 = true ∧ numbers m3 = .ok v3 ∧
      (Proper3 E.dh v3 →
    ∃ m4 B2 v4, handle E hostB4 m3 r4 B1 = (.ok (some m4), B2) ∧
      B2.status = outcome E (secretNumber E (fingerprint3 E kA) (fingerprint3 E kB) A.ssid sA)
        (secretNumber E (fingerprint3 E kA) (fingerprint3 E kB) A.ssid sB) ∧
      B2.state = .expect1 ∧ B2.ssid = B.ssid ∧ B2.their = B.their ∧ isSmpTlv m4 = true ∧ numbers m4 = .ok v4 ∧ (Proper4 E.dh v4 →
    ∃ A3, handle E hostA5 m4 r5 A2 = (.ok .none, A3) ∧
      A3.status = outcome E (secretNumber E (fingerprint3 E kA) (fingerprint3 E kB) A.ssid sA)
        (secretNumber E (fingerprint3 E kA) (fingerprint3 E kB) A.ssid sB) ∧
      A3.state = .expect1 ∧ A3.ssid = A.ssid ∧ A3.their = A.their)))) :=
  run3_any hG hkA hkB hA hB hq hans (hA' ▸ rfl) (hB' ▸ hs ▸ rfl) r1 r2 r3 r4 r5

/-- A complete exchange, with secrets that may differ.  The conditions that all numbers sent are in range are
met but with negligible probability. -/
theorem run3 {hostA hostB : SMPHost} {kA kB : DSAPublicKey} {A B : SMPContext} {q sA sB : Bytes}
    (hkA : hostA.key = some kA) (hkB : hostB.key = some kB) (hA : A.state = .expect1) (hB : B.state = .expect1)
    (hs : A.ssid = B.ssid) (hq : ∀ b ∈ q, b ≠ 0) (hans : hostB.secret q = some sB)
    (hA' : A.their = fingerprint3 E kB) (hB' : B.their = fingerprint3 E kA) (r1 r2 r3 r4 r5 : Rand) :
    ∃ m1 A1 v1, start E hostA sA q r1 A = (.ok m1, A1) ∧ A1.status = .inProgress ∧ numbers m1 = .ok v1 ∧ (Proper1 E.dh v1 →
    ∃ m2 B1 v2, handle E hostB m1 r2 B = (.ok (some m2), B1) ∧ B1.status = .inProgress ∧ numbers m2 = .ok v2 ∧
      (Proper2 E.dh v2 →
    ∃ m3 A2 v3, handle E hostA m2 r3 A1 = (.ok (some m3), A2) ∧ A2.status = .inProgress ∧ numbers m3 = .ok v3 ∧
      (Proper3 E.dh v3 →
    ∃ m4 B2 v4, handle E hostB m3 r4 B1 = (.ok (some m4), B2) ∧
      B2.status = outcome E (secretNumber E (fingerprint3 E kA) (fingerprint3 E kB) A.ssid sA)
        (secretNumber E (fingerprint3 E kA) (fingerprint3 E kB) A.ssid sB) ∧ numbers m4 = .ok v4 ∧ (Proper4 E.dh v4 →
    ∃ A3, handle E hostA m4 r5 A2 = (.ok .none, A3) ∧
      A3.status = outcome E (secretNumber E (fingerprint3 E kA) (fingerprint3 E kB) A.ssid sA)
        (secretNumber E (fingerprint3 E kA) (fingerprint3 E kB) A.ssid sB))))) := by
  obtain ⟨m1, A1, v1, h1, h2, _, h3, k⟩ := run3_types hG (sA := sA) hkA hkB hA hB hs hq hans hA' hB' r1 r2 r3 r4 r5
    (hostA3 := hostA) (hostB4 := hostB) (hostA5 := hostA)
  refine ⟨m1, A1, v1, h1, h2, h3, fun p => ?_⟩
  obtain ⟨m2, B1, v2, h1, h2, _, h3, k⟩ := k p
  refine ⟨m2, B1, v2, h1, h2, h3, fun p => ?_⟩
  obtain ⟨m3, A2, v3, h1, h2, _, h3, k⟩ := k p
  refine ⟨m3, A2, v3, h1, h2, h3, fun p => ?_⟩
  obtain ⟨m4, B2, v4, h1, h2, _, _, _, _, h3, k⟩ := k p
  refine ⟨m4, B2, v4, h1, h2, h3, fun p => ?_⟩
  obtain ⟨A3, h1, h2, _⟩ := k p
  exact ⟨A3, h1, h2⟩

end run

end SMP

end Otrr
