import Verif.Spec.SmpLeak
import Verif.Spec.SmpBinding
import Verif.Lemmas.SmpRun
import Verif.Lemmas.Smp4Run
import Verif.Lemmas.Hiding
import Verif.Lemmas.Toy
import Verif.Props.Smp
import Verif.Props.Smp4
import Verif.Lemmas.SessionExchange
import Mathlib.Data.Int.CardIntervalMod
/-! C107: what the messages of SMP tell about a secret. -/

namespace Otrr.Props
open Otrr Otrr.Spec

/-! ## OTRv4 -/

section v4
open Otrr.SMP4

theorem response_back {c : Curve} (hq : 0 < c.q) (r a ch : Nat) : (SMP4.response c r a ch + ch * a) % c.q = r % c.q := by
  have h0 : (0 : Int) < c.q := by exact_mod_cast hq
  have h : ((SMP4.response c r a ch : Nat) : Int) ≡ r - a * ch [ZMOD c.q] := by
    rw [SMP4.response, modFloor, Int.toNat_of_nonneg (Int.emod_nonneg _ h0.ne')]
    refine (Int.mod_modEq _ _).trans ((Int.ModEq.refl _).sub ?_)
    rw [Int.natCast_mod, Nat.cast_mul]
    exact Int.mod_modEq _ _
  have h2 : ((SMP4.response c r a ch + ch * a : Nat) : Int) ≡ (r : Nat) [ZMOD c.q] := by
    push_cast
    have := h.add_right (ch * a : Int)
    rwa [mul_comm (a : Int), sub_add_cancel] at this
  exact (Int.natCast_modEq_iff.mp h2)

theorem scalar_back {n : Nat} (h : n < ed448.q) : leNat (wScalar n) = n :=
  leNat_leBytes_of_lt (h.trans (by decide +kernel))

theorem scalar_len (n : Nat) : (wScalar n).length = 57 := leBytes_length _ _

/-- Field `i` of a concatenation of fields of 57 bytes. -/
theorem field_at (xs : List Bytes) (h : ∀ x ∈ xs, x.length = 57) (i : Nat) {x : Bytes} (hi : xs[i]? = some x) :
    (xs.flatten.drop (i * 57)).take 57 = x := by
  induction xs generalizing i with
  | nil => simp at hi
  | cons y xs ih =>
    have hy := h y (.head _)
    cases i with
    | zero =>
      simp only [List.getElem?_cons_zero, Option.some.injEq] at hi
      subst hi
      rw [List.flatten_cons, Nat.zero_mul, List.drop_zero, List.take_append_of_le_length (by omega), List.take_of_length_le (by omega)]
    | succ i =>
      rw [List.getElem?_cons_succ] at hi
      rw [List.flatten_cons, Nat.succ_mul, Nat.add_comm, ← List.drop_drop, List.drop_append_of_le_length (Nat.le_of_eq hy.symm),
        List.drop_of_length_le (Nat.le_of_eq hy), List.nil_append]
      exact ih (fun z hz => h z (.tail _ hz)) i hi

theorem message2_parts {E : Env} (hE : E.curve = ed448) (G2 G3 : Point) (y : Nat) (e : SMP.Exps2) :
    challengeIn ⟨T2, message2 E G2 G3 y e⟩ = hash2 E 5 (Point.mul E.curve G3 e.r5) (comb2 E.curve E.curve.G e.r5 G2 e.r6) ∧
    answerIn ⟨T2, message2 E G2 G3 y e⟩ =
      SMP4.response E.curve e.r6 y (hash2 E 5 (Point.mul E.curve G3 e.r5) (comb2 E.curve E.curve.G e.r5 G2 e.r6)) := by
  have hc : GoodCurve E.curve := hE ▸ ed448_goodCurve
  unfold answerIn challengeIn place message2
  simp only [T2, if_true]
  generalize hcp : hash2 E 5 (Point.mul E.curve G3 e.r5) (comb2 E.curve E.curve.G e.r5 G2 e.r6) = cp
  have hcp' : cp < ed448.q := by rw [← hcp, ← hE]; exact hash2_lt hc _ _ _
  have hd := response_lt hc e.r6 y cp
  rw [hE] at hd
  rw [show (8 * 57 + 114 : Nat) = 10 * 57 from rfl]
  have key := field_at [wPoint (Point.mul E.curve E.curve.G e.b2), wScalar (hash1 E 3 (Point.mul E.curve E.curve.G e.r2)),
    wScalar (SMP4.response E.curve e.r2 e.b2 (hash1 E 3 (Point.mul E.curve E.curve.G e.r2))), wPoint (Point.mul E.curve E.curve.G e.b3),
    wScalar (hash1 E 4 (Point.mul E.curve E.curve.G e.r3)),
    wScalar (SMP4.response E.curve e.r3 e.b3 (hash1 E 4 (Point.mul E.curve E.curve.G e.r3))), wPoint (Point.mul E.curve G3 e.r4),
    wPoint (comb2 E.curve E.curve.G e.r4 G2 y), wScalar cp, wScalar (SMP4.response E.curve e.r5 e.r4 cp),
    wScalar (SMP4.response E.curve e.r6 y cp)]
    (by simp only [List.forall_mem_cons, wPoint_length, scalar_len, List.not_mem_nil, false_imp_iff, implies_true, and_self])
  simp only [List.flatten_cons, List.flatten_nil, List.append_nil] at key
  simp only [List.append_assoc]
  rw [key 10 rfl, key 8 rfl, scalar_back hcp', scalar_back (hE ▸ hd)]
  exact ⟨rfl, rfl⟩

theorem message2_test {E : Env} (hE : E.curve = ed448) (G2 G3 : Point) (y : Nat) (e : SMP.Exps2) :
    (answerIn ⟨T2, message2 E G2 G3 y e⟩ + challengeIn ⟨T2, message2 E G2 G3 y e⟩ * y) % ed448.q = e.r6 % ed448.q := by
  obtain ⟨h1, h2⟩ := message2_parts hE G2 G3 y e
  rw [h1, h2, hE, response_back (by decide +kernel)]

theorem message3_test {E : Env} (hE : E.curve = ed448) (G2 G3 : Point) (x a3 : Nat) (D : Point) (e : SMP.Exps3) :
    (answerIn ⟨T3, message3 E G2 G3 x a3 D e⟩ + challengeIn ⟨T3, message3 E G2 G3 x a3 D e⟩ * x) % ed448.q = e.r6 % ed448.q := by
  have hc : GoodCurve E.curve := hE ▸ ed448_goodCurve
  have hq : 0 < ed448.q := by decide +kernel
  unfold answerIn challengeIn place message3
  simp only [T3, show ¬ (4 : UInt16) = 3 by decide, if_false]
  generalize hcp : hash2 E 6 (Point.mul E.curve G3 e.r5) (comb2 E.curve E.curve.G e.r5 G2 e.r6) = cp
  generalize hash2 E 7 (Point.mul E.curve E.curve.G e.r7) (Point.mul E.curve D e.r7) = cr
  have hcp' : cp < ed448.q := by rw [← hcp, ← hE]; exact hash2_lt hc _ _ _
  have hd := response_lt hc e.r6 x cp
  rw [hE] at hd
  rw [show (2 * 57 + 114 : Nat) = 4 * 57 from rfl]
  have key := field_at [wPoint (Point.mul E.curve G3 e.r4), wPoint (comb2 E.curve E.curve.G e.r4 G2 x), wScalar cp,
    wScalar (SMP4.response E.curve e.r5 e.r4 cp), wScalar (SMP4.response E.curve e.r6 x cp), wPoint (Point.mul E.curve D a3), wScalar cr,
    wScalar (SMP4.response E.curve e.r7 a3 cr)]
    (by simp only [List.forall_mem_cons, wPoint_length, scalar_len, List.not_mem_nil, false_imp_iff, implies_true, and_self])
  simp only [List.flatten_cons, List.flatten_nil, List.append_nil] at key
  simp only [List.append_assoc]
  rw [key 4 rfl, key 2 rfl, scalar_back hcp', scalar_back (hE ▸ hd), hE, response_back hq]

/-- A test of the form `(d + c * n) % q` takes each value once. -/
theorem test_onto {c : Nat} (hc : c % ed448.q ≠ 0) (d v : Nat) (hv : v < ed448.q) : ∃ n < ed448.q, (d + c * n) % ed448.q = v := by
  have := Fact.mk ed448_smpCurve.prime
  have h0 : (c : ZMod ed448.q) ≠ 0 := fun h => hc (Nat.mod_eq_zero_of_dvd ((ZMod.natCast_eq_zero_iff _ _).mp h))
  refine ⟨(((v : ZMod ed448.q) - d) / c).val, ZMod.val_lt _, ?_⟩
  have h : ((d + c * (((v : ZMod ed448.q) - d) / c).val : Nat) : ZMod ed448.q) = v := by
    push_cast
    rw [ZMod.natCast_zmod_val, mul_div_cancel₀ _ h0, add_sub_cancel]
  have := (ZMod.natCast_eq_natCast_iff' _ _ _).mp h
  rwa [Nat.mod_eq_of_lt hv] at this

theorem telling_num {i : Nat} (h : i < 2 ^ 445 - 2 ^ 226) : Telling (2 ^ 226 + (4 * (i / 2) + i % 2)) ∧ 2 ^ 226 + (4 * (i / 2) + i % 2) < ed448.q := by
  unfold Telling
  simp only [ed448]
  norm_num at h ⊢
  omega

/-- About half of all numbers are excluded. -/
theorem excluded_card {m : TLV} (hc : challengeIn m % ed448.q ≠ 0) : 2 ^ 445 - 2 ^ 226 ≤ (excluded m).card := by
  choose! f hf using fun v hv => test_onto hc (answerIn m) v hv
  rw [← Finset.card_range (2 ^ 445 - 2 ^ 226)]
  refine Finset.card_le_card_of_injOn (fun i => f (2 ^ 226 + (4 * (i / 2) + i % 2))) ?_ ?_
  · intro i hi
    have hi := Finset.mem_range.mp (Finset.mem_coe.mp hi)
    obtain ⟨h1, h2⟩ := telling_num hi
    obtain ⟨h3, h4⟩ := hf _ h2
    simp only [excluded, Finset.coe_filter, Finset.mem_range, Set.mem_ofPred_eq]
    refine ⟨h3, ?_⟩
    unfold Excludes
    rw [h4]
    exact h1
  · intro i hi j hj h
    have hi := telling_num (Finset.mem_range.mp (Finset.mem_coe.mp hi))
    have hj := telling_num (Finset.mem_range.mp (Finset.mem_coe.mp hj))
    have := (hf _ hi.2).2
    dsimp only at h
    rw [h, (hf _ hj.2).2] at this
    omega

theorem random_test {E : Env} (hE : E.curve = ed448) (rnd : Rand) (i : Nat) : ¬ Telling (SMP4.random E rnd i % ed448.q) := by
  rw [Nat.mod_eq_of_lt (hE ▸ random_lt (by rw [hE]; decide +kernel) (random_draw (E := E) rnd i))]
  exact random_not_telling hE _

theorem excludes_mod (m : TLV) (n : Nat) : Excludes m (n % ed448.q) ↔ Excludes m n := by
  unfold Excludes
  rw [Nat.add_mod, Nat.mul_mod, Nat.mod_mod, ← Nat.mul_mod, ← Nat.add_mod]

/-- A reply comes from one of the four steps. -/
theorem reply_cases {E : Env} {host : SMPHost} {t m : TLV} {rnd : Rand} {s s' : SMP4Context}
    (h : handle E host t rnd s = (.ok (some m), s')) :
    m.typ = 6 ∨ handle1 E host t rnd { s with status := .inProgress } = .ok (some m, s') ∨
      handle2 E t rnd { s with status := .inProgress } = .ok (some m, s') ∨ m.typ = 5 := by
  unfold handle at h
  cases hd : dispatch E host t rnd s with
  | panic => rw [hd] at h; cases h
  | err e => rw [hd] at h; cases h
  | ok v =>
    obtain ⟨r, s1⟩ := v
    rw [hd] at h
    dsimp only at h
    cases h
    unfold dispatch at hd
    dsimp only at hd
    split at hd
    · cases hd; exact .inl rfl
    split at hd
    · exact .inr (.inl hd)
    split at hd
    · exact .inr (.inr (.inl hd))
    split at hd
    · unfold SMP4.handle3 at hd
      dsimp only at hd
      split at hd
      · simp only [Res.bind_eq_ok] at hd
        obtain ⟨_, _, _, _, hd⟩ := hd
        split at hd <;> · cases hd; exact .inr (.inr (.inr rfl))
      · cases hd
    split at hd
    · unfold SMP4.handle4 at hd
      dsimp only at hd
      split at hd
      · simp only [Res.bind_eq_ok] at hd
        obtain ⟨_, _, _, _, _, _, hd⟩ := hd
        cases hd
      · cases hd
    · cases hd

/-- C107 is false of the code, OTRv4, the client that answers: the message in which it answers a request excludes about half of all numbers
that the user's secret could have, and never the right one.  Whoever receives the message can test guesses at the secret, as many as
they want. -/
theorem C107_violated {E : Env} (hE : E.curve = ed448) {host : SMPHost} {t m : TLV} {rnd : Rand} {s s' : SMP4Context}
    (h : handle E host t rnd s = (.ok (some m), s')) (hm : m.typ = 3) :
    (∃ q secret, host.secret q = some secret ∧ ¬ Excludes m (number4 E (compared4 s.them s.us s.ssid secret))) ∧
    (challengeIn m % ed448.q ≠ 0 → 2 ^ 445 - 2 ^ 226 ≤ (excluded m).card) := by
  refine ⟨?_, excluded_card⟩
  have key : handle1 E host t rnd { s with status := .inProgress } = .ok (some m, s') := by
    rcases reply_cases h with h1 | h1 | h1 | h1
    · rw [hm] at h1; cases h1
    · exact h1
    · exfalso
      unfold SMP4.handle2 at h1
      dsimp only at h1
      split at h1
      · simp only [Res.bind_eq_ok] at h1
        obtain ⟨_, _, _, _, h1⟩ := h1
        cases h1
        cases hm
      · cases h1
    · rw [hm] at h1; cases h1
  unfold SMP4.handle1 at key
  dsimp only at key
  split at key
  · simp only [Res.bind_eq_ok] at key
    obtain ⟨m1, _, _, _, key⟩ := key
    split at key
    · cases key
    · rename_i secret hs
      simp only [Res.bind_eq_ok] at key
      obtain ⟨_, _, _, _, _, _, _, _, key⟩ := key
      cases key
      refine ⟨_, secret, hs, ?_⟩
      have e : number4 E (compared4 s.them s.us s.ssid secret) = computeSecret E s.them s.us s.ssid secret % ed448.q := by
        rw [← hE]; rfl
      rw [e, excludes_mod]
      unfold Excludes
      rw [message2_test hE]
      exact random_test hE _ _
  · cases key

/-- C107 is false of the code, OTRv4, the client that asked: the same holds for its second message. -/
theorem C107_violated_asking {E : Env} (hE : E.curve = ed448) {host : SMPHost} {secret q : Bytes} {m1 t m : TLV} {rnd rnd' : Rand}
    {s s1 s2 : SMP4Context} (h1 : start E secret q rnd s = (.ok m1, s1)) (h2 : handle E host t rnd' s1 = (.ok (some m), s2))
    (hm : m.typ = 4) :
    ¬ Excludes m (number4 E (compared4 s.us s.them s.ssid secret)) ∧
    (challengeIn m % ed448.q ≠ 0 → 2 ^ 445 - 2 ^ 226 ≤ (excluded m).card) := by
  refine ⟨?_, excluded_card⟩
  have hs1 : ∃ a2 a3, s1.state = .expect2 (computeSecret E s.us s.them s.ssid secret) a2 a3 := by
    unfold SMP4.start at h1
    dsimp only at h1
    split at h1
    · cases h1
    · split at h1
      · cases h1; exact ⟨_, _, rfl⟩
      · cases h1
      · cases h1
  obtain ⟨a2, a3, hst⟩ := hs1
  rcases reply_cases h2 with h | h | h | h
  · rw [hm] at h; cases h
  · unfold SMP4.handle1 at h
    dsimp only at h
    rw [hst] at h
    cases h
  · unfold SMP4.handle2 at h
    dsimp only at h
    rw [hst] at h
    simp only [Res.bind_eq_ok] at h
    obtain ⟨_, _, _, _, h⟩ := h
    cases h
    have e : number4 E (compared4 s.us s.them s.ssid secret) = computeSecret E s.us s.them s.ssid secret % ed448.q := by
      rw [← hE]; rfl
    rw [e, hE]
    unfold Excludes
    rw [message3_test hE]
    exact random_test hE _ _
  · rw [hm] at h; cases h

/-! ### A case -/

/-- The reply to an honest request. -/
theorem honest_answer {E : Env} (hc : SmpCurve E.curve) {host : SMPHost} {B : SMP4Context} {q sB : Bytes} (hB : B.state = .expect1)
    (hq : q.length < 2 ^ 32) (hans : host.secret q = some sB) {a2 a3 ρ2 ρ3 : Nat} (r2 : Rand) (ha2 : a2 % E.curve.q ≠ 0)
    (ha3 : a3 % E.curve.q ≠ 0) (hb2 : (draw2 E r2).b2 % E.curve.q ≠ 0) (hb3 : (draw2 E r2).b3 % E.curve.q ≠ 0)
    (hb4 : (draw2 E r2).r4 % E.curve.q ≠ 0)
    (hQ : ((draw2 E r2).r4 + a2 * (draw2 E r2).b2 * computeSecret E B.them B.us B.ssid sB) % E.curve.q ≠ 0)
    (n1 : Nontrivial4 (sent1 E a2 a3 ρ2 ρ3)) :
    ∃ G2 G3 B', handle E host ⟨T1, message1 E q a2 a3 ρ2 ρ3⟩ r2 B =
      (.ok (some ⟨T2, message2 E G2 G3 (computeSecret E B.them B.us B.ssid sB) (draw2 E r2)⟩), B') := by
  have := Fact.mk hc.good.field.prime
  have := hc.good.field.good
  have hG := inSub_G hc.good
  have gk := goodKey_G hc
  obtain ⟨g, hg, ho⟩ := order_G hc
  have hg0 : E.curve.q • g = 0 := (inSub_iff hg).mp hG
  have k2 := goodKey_mul hc (goodKey_mul hc gk ha2) hb2
  have k3 := goodKey_mul hc (goodKey_mul hc gk ha3) hb3
  have kP := goodKey_mul hc k3 hb4
  have rep2 := ((hg.mul a2).mul ((draw2 E r2).b2))
  generalize hy : computeSecret E B.them B.us B.ssid sB = y at *
  have repQ := (hg.mul ((draw2 E r2).r4)).add (rep2.mul y)
  have kQ : GoodKey E.curve (comb2 E.curve E.curve.G ((draw2 E r2).r4)
      (Point.mul E.curve (Point.mul E.curve E.curve.G a2) ((draw2 E r2).b2)) y) := by
    refine goodKey_iff.mpr ⟨hG.comb2 k2.inSub _ _, fun h => hQ ?_⟩
    have h' := (repQ.eq_iff rep_identity).mp h
    rw [← mul_smul, ← mul_smul, ← add_smul, ← addOrderOf_dvd_iff_nsmul_eq_zero, ho] at h'
    rw [show (draw2 E r2).r4 + a2 * (draw2 E r2).b2 * y = (draw2 E r2).r4 + y * (draw2 E r2).b2 * a2 by ring]
    exact Nat.mod_eq_zero_of_dvd h'
  have hgood : Good1 E sB (Point.mul E.curve E.curve.G a2) (Point.mul E.curve E.curve.G a3) r2 B := by
    simp only [Good1, hy]
    exact ⟨k2, k3, kP, kQ⟩
  have hh1 := honest1 hc.good hB hq hans n1 hgood
  simp only [after1, hy] at hh1
  exact ⟨_, _, _, hh1⟩

/-- Primitives for an example: the curve of the code, and a hash whose result has 1 in its first byte; and for a random number and for a
secret, the last byte of the input in byte 55. -/
def lastEnv : Env := { toyEnv with
  curve := ed448
  shake := fun n b => (List.range n).map fun i => if i = 0 then 1 else if i = 55 ∧ (b.length = 57 ∨ b.getD 5 0 = 0x19) then b.getLastD 0 else 0
  shake_len := fun n _ => by rw [List.length_map, List.length_range] }

theorem lastEnv_curve : lastEnv.curve = ed448 := by simp only [lastEnv]

theorem last_hash {d : Bytes} {u : UInt8} (hu : u ≠ 0x19) (hd : d.length ≠ 51) : hashToScalar lastEnv u d = 1 := by
  unfold hashToScalar kdf
  have h : lastEnv.shake 57 ([0x4f, 0x54, 0x52, 0x76, 0x34] ++ [u] ++ d) = (List.range 57).map fun i => if i = 0 then 1 else 0 := by
    simp only [lastEnv]
    apply List.map_congr_left
    intro i _
    split
    · rfl
    · rw [if_neg]
      rintro ⟨_, h | h⟩
      · simp only [List.length_append, List.length_cons, List.length_nil] at h; omega
      · exact hu h
  rw [h, lastEnv_curve]
  decide +kernel

/-- Random numbers and secrets of the example. -/
def drawn (b : UInt8) : Nat := leNat (prune ((List.range 57).map fun i => if i = 0 then 1 else if i = 55 then b else 0))

theorem last_number {us them ssid secret : Bytes} : computeSecret lastEnv them us ssid (secret ++ [b]) = drawn b := by
  unfold computeSecret kdf drawn
  simp only [lastEnv]
  congr 2
  apply List.map_congr_left
  intro i _
  split
  · rfl
  · have e : ([0x4f, 0x54, 0x52, 0x76, 0x34] ++ [0x19] ++ (wU8 1 ++ them ++ us ++ ssid ++ wData (secret ++ [b])) : Bytes).getLastD 0 = b := by
      simp only [wData, ← List.append_assoc, List.getLastD_concat]
    rw [e]
    by_cases h : i = 55
    · rw [if_pos ⟨h, .inr rfl⟩, if_pos h]
    · rw [if_neg (fun h' => h h'.1), if_neg h]

/-- A random source: in the draw number `i`, all bytes are `i + 1`. -/
def lastRand : Rand := ⟨fun site n => List.replicate n (UInt8.ofNat (site.headD 0 + 1)), fun _ _ => List.length_replicate⟩

theorem last_random (i : Nat) : SMP4.random lastEnv lastRand i = drawn (UInt8.ofNat (i + 1)) % ed448.q := by
  unfold SMP4.random randomInZq drawn
  rw [lastEnv_curve]
  simp only [lastEnv, lastRand]
  congr 3

theorem last_hash1 {u : UInt8} (h : u ≠ 0x19) (P : Point) : hash1 lastEnv u P = 1 := last_hash h (by rw [P.encode_length]; decide)

theorem last_nontrivial {a2 a3 r2 r3 : Nat} (i1 : Point.mul lastEnv.curve lastEnv.curve.G a2 ≠ Point.identity)
    (i2 : Point.mul lastEnv.curve lastEnv.curve.G a3 ≠ Point.identity) (d1 : SMP4.response lastEnv.curve r2 a2 1 ≠ 0)
    (d2 : SMP4.response lastEnv.curve r3 a3 1 ≠ 0) : Nontrivial4 (sent1 lastEnv a2 a3 r2 r3) := by
  simp only [Nontrivial4, sent1, fields1, last_hash1 (u := 1) (by decide), last_hash1 (u := 2) (by decide), List.forall_mem_cons, ne_eq,
    Field4.point.injEq, Field4.scalar.injEq, reduceCtorEq, not_false_eq_true, and_true, true_and, List.not_mem_nil, false_implies,
    implies_true]
  exact ⟨i1, d1, i2, d2⟩

/-- C107 is false of the code: a case.  A client whose user has answered a request with one secret sends a message that excludes another. -/
theorem C107_violated_case : ∃ E : Env, E.curve = ed448 ∧ ∃ (host : SMPHost) (secret other : Bytes) (t m : TLV) (rnd : Rand) (s s' : SMP4Context),
    (∀ q, host.secret q = some secret) ∧ handle E host t rnd s = (.ok (some m), s') ∧ m.typ = 3 ∧ challengeIn m % ed448.q ≠ 0 ∧
    ¬ Excludes m (number4 E (compared4 s.them s.us s.ssid secret)) ∧ Excludes m (number4 E (compared4 s.them s.us s.ssid other)) := by
  have hE := lastEnv_curve
  have h2 : ∀ u P R, u ≠ 0x19 → hash2 lastEnv u P R = 1 := fun u P R h => last_hash h (by
    rw [List.length_append, P.encode_length, R.encode_length]; decide)
  have hc : SmpCurve lastEnv.curve := hE ▸ ed448_smpCurve
  have hy := last_number (us := []) (them := []) (ssid := []) (secret := []) (b := 1)
  have hn : Nontrivial4 (sent1 lastEnv (drawn 1) (drawn 2) (drawn 3) (drawn 4)) := by
    have k := goodKey_G hc
    have i1 : Point.mul lastEnv.curve lastEnv.curve.G (drawn 1) ≠ Point.identity :=
      fun h => absurd ((mul_eq_identity hc k _).mp h) (by rw [hE]; decide +kernel)
    have i2 : Point.mul lastEnv.curve lastEnv.curve.G (drawn 2) ≠ Point.identity :=
      fun h => absurd ((mul_eq_identity hc k _).mp h) (by rw [hE]; decide +kernel)
    have d1 : SMP4.response lastEnv.curve (drawn 3) (drawn 1) 1 ≠ 0 := by rw [hE]; decide +kernel
    have d2 : SMP4.response lastEnv.curve (drawn 4) (drawn 2) 1 ≠ 0 := by rw [hE]; decide +kernel
    exact last_nontrivial i1 i2 d1 d2
  have e2 : draw2 lastEnv lastRand = ⟨drawn 1 % ed448.q, drawn 2 % ed448.q, drawn 3 % ed448.q, drawn 4 % ed448.q, drawn 5 % ed448.q,
      drawn 6 % ed448.q, drawn 7 % ed448.q⟩ := by
    simp only [draw2, last_random]
    rfl
  obtain ⟨G2, G3, B', h⟩ := honest_answer hc (host := ⟨.none, fun _ => some [1]⟩) (B := SMP4.new [] [] []) (q := []) (sB := [1])
    (a2 := drawn 1) (a3 := drawn 2) (ρ2 := drawn 3) (ρ3 := drawn 4) rfl (by decide) rfl lastRand (by rw [hE]; decide +kernel)
    (by rw [hE]; decide +kernel) (by rw [e2, hE]; decide +kernel) (by rw [e2, hE]; decide +kernel) (by rw [e2, hE]; decide +kernel)
    (by
      have : computeSecret lastEnv (SMP4.new [] [] []).them (SMP4.new [] [] []).us (SMP4.new [] [] []).ssid [1] = drawn 1 := hy
      rw [e2, hE, this]; decide +kernel) hn
  refine ⟨lastEnv, hE, ⟨.none, fun _ => some [1]⟩, [1], [127], _, _, lastRand, SMP4.new [] [] [], B', fun _ => rfl, h, rfl, ?_, ?_, ?_⟩
  · rw [(message2_parts hE ..).1, h2 5 _ _ (by decide)]
    decide +kernel
  · obtain ⟨⟨q, s, e, h'⟩, _⟩ := C107_violated hE h rfl
    cases e
    exact h'
  · have e : number4 lastEnv (compared4 (SMP4.new [] [] []).them (SMP4.new [] [] []).us (SMP4.new [] [] []).ssid [127]) =
        drawn 127 % ed448.q := by
      have := last_number (us := []) (them := []) (ssid := []) (secret := []) (b := 127)
      rw [← this, ← hE]; rfl
    rw [e]
    unfold Excludes
    obtain ⟨p1, p2⟩ := message2_parts hE G2 G3
      (computeSecret lastEnv (SMP4.new [] [] []).them (SMP4.new [] [] []).us (SMP4.new [] [] []).ssid [1]) (draw2 lastEnv lastRand)
    rw [p1, p2, h2 5 _ _ (by decide), e2, hE]
    have e3 : computeSecret lastEnv (SMP4.new [] [] []).them (SMP4.new [] [] []).us (SMP4.new [] [] []).ssid [1] = drawn 1 := hy
    rw [e3]
    unfold Telling
    decide +kernel

end v4

/-! ## OTRv3 -/

section v3
open Otrr.SMP

theorem response_back3 {G : DHGroup} (hq : 0 < G.q) (r a c : Nat) : (SMP.response G r a c + c * a) % G.q = r % G.q := by
  have h := Nat.mod_lt (a * c) hq
  rw [SMP.response, Nat.mod_add_mod, Nat.mul_comm c, ← Nat.add_mod_mod,
    show r + G.q - a * c % G.q + a * c % G.q = r + G.q by omega, Nat.add_mod_right]

theorem count_bounds {q : Nat} (hq : 0 < q) (N v : Nat) :
    N / q ≤ ((Finset.range N).filter fun r => v % q = r % q).card ∧ ((Finset.range N).filter fun r => v % q = r % q).card ≤ N / q + 1 := by
  have h := Nat.count_modEq_card N hq v
  have e : ((Finset.range N).filter fun r => v % q = r % q).card = N.count (· ≡ v [MOD q]) := by
    rw [Nat.count_eq_card_filter_range]
    congr 1
    apply Finset.filter_congr
    intro r _
    exact eq_comm
  rw [e, h]
  split <;> omega

theorem ways_bounds {q : Nat} (hq : 0 < q) (c d n : Nat) : 256 ^ 192 / q ≤ ways q c d n ∧ ways q c d n ≤ 256 ^ 192 / q + 1 :=
  count_bounds hq _ _

theorem number_mod {q : Nat} (d c n : Nat) : (d + c * (n % q)) % q = (d + c * n) % q := by
  rw [Nat.add_mod, Nat.mul_mod, Nat.mod_mod, ← Nat.mul_mod, ← Nat.add_mod]

theorem div_shape (G : DHGroup) (a b : Nat) : (∃ k, div G a b = .ok k) ∨ div G a b = .panic := by
  unfold div modInv
  cases modInverse b G.p with
  | none => exact .inr rfl
  | some i => exact .inl ⟨_, rfl⟩

/-- The third step replies with TLV 5. -/
theorem handle3_shape (E : Env) {t : TLV} (ht : t.typ ≠ 7) (rnd : Rand) (c : SMPContext) :
    SMP.handle3 E t rnd c = .panic ∨ (∃ e, Plain e ∧ SMP.handle3 E t rnd c = .err e) ∨
      ∃ m : TLV, m.typ = 5 ∧ (SMP.handle3 E t rnd c = .err (.smpSuccess (some m)) ∨ SMP.handle3 E t rnd c = .err (.smpFailed (some m))) := by
  unfold SMP.handle3
  split
  · rename_i g3a g2 g3 b3 Pb Qb hs
    rcases readNumbers_cases ht 8 with ⟨ms, h1, h2, h3⟩ | h | h
    · obtain ⟨Pa, Qa, cP, D5, D6, Ra, cR, D7, rfl⟩ := len8 h3
      rw [h1]
      simp only [Res.bind_ok]
      rcases check3_check (E := E) g2 g3 Pa Qa cP D5 D6 Ra D7 with hc | hc
      · rw [hc]
        rcases div_shape E.dh Qa Qb with ⟨k, k1⟩ | k1
        · simp only [Res.bind_ok, k1]
          rcases Check.verify cR (hash2 E 7 (pow2 E.dh E.dh.g D7 g3a cR) (pow2 E.dh k D7 Ra cR)) with hv | hv
          · rw [hv]
            rcases div_shape E.dh Pa Pb with ⟨l, l1⟩ | l1
            · simp only [Res.bind_ok, l1]
              right; right
              refine ⟨⟨T4, wMpiSequence (values4 E k b3 (SMP.random E rnd 0))⟩, rfl, ?_⟩
              by_cases h : l = modpow Ra b3 E.dh.p
              · left; rw [if_pos h]
              · right; rw [if_neg h]
            · left; rw [l1]; rfl
          · right; left; rw [hv]; exact ⟨_, .inr (.inr rfl), rfl⟩
        · left; rw [k1]; rfl
      · right; left; rw [hc]; exact ⟨_, .inr (.inr rfl), rfl⟩
    · right; left; rw [h]; exact ⟨_, .inl rfl, rfl⟩
    · right; left; rw [h]; exact ⟨_, .inr (.inl rfl), rfl⟩
  · right; left; exact ⟨_, .inl rfl, rfl⟩

/-- A reply comes from one of the four steps. -/
theorem reply_cases3 {E : Env} {host : SMPHost} {t m : TLV} {rnd : Rand} {c c' : SMPContext}
    (hG : SmpGroup E.dh) (h : handle E host t rnd c = (.ok (some m), c')) :
    m.typ = 6 ∨ (t.typ ≠ 3 ∧ handle1 E host t rnd c = .ok (m, c')) ∨ (t.typ = 3 ∧ handle2 E t rnd c = .ok (m, c')) ∨ m.typ = 5 := by
  have abort : ∀ {e}, Plain e → dispatch E host t rnd c = .err e → m.typ = 6 := by
    intro e he hd
    unfold SMP.handle at h
    dsimp only at h
    rw [hd] at h
    rcases he with rfl | rfl | rfl <;> (cases h; rfl)
  by_cases h1 : t.typ = T1 ∨ t.typ = T1Q
  · have hd : dispatch E host t rnd c = handle1 E host t rnd c := by unfold dispatch; rw [if_pos h1]
    rcases handle1_spec E host t rnd c with ⟨e, he, h2⟩ | ⟨_, h2⟩ | ⟨_, h2⟩ | ⟨key, answer, g2a, g3a, _, _, hs, hk, h2⟩
    · exact .inl (abort he (hd.trans h2))
    · unfold SMP.handle at h
      dsimp only at h
      rw [hd, h2] at h
      cases h; exact .inl rfl
    · unfold SMP.handle at h
      dsimp only at h
      rw [hd, h2] at h
      cases h
    · refine .inr (.inl ⟨by rcases h1 with h1 | h1 <;> rw [h1] <;> decide, ?_⟩)
      unfold SMP.handle at h
      dsimp only at h
      rw [hd] at h
      rw [h2] at h ⊢
      cases h; rfl
  by_cases h2 : t.typ = T2
  · have hd : dispatch E host t rnd c = handle2 E t rnd c := by unfold dispatch; rw [if_neg h1, if_pos h2]
    rcases handle2_spec hG (by rw [h2]; decide) rnd c with ⟨e, he, h3⟩ | ⟨_, _, _, _, _, _, _, _, _, _, _, _, _, _, _, h3⟩
    · exact .inl (abort he (hd.trans h3))
    · refine .inr (.inr (.inl ⟨h2, ?_⟩))
      unfold SMP.handle at h
      dsimp only at h
      rw [hd] at h
      rw [h3] at h ⊢
      cases h; rfl
  by_cases h3 : t.typ = T3
  · have hd : dispatch E host t rnd c = handle3 E t rnd c := by unfold dispatch; rw [if_neg h1, if_neg h2, if_pos h3]
    rcases handle3_shape E (by rw [h3]; decide) rnd c with h4 | ⟨e, he, h4⟩ | ⟨m', hm, h4 | h4⟩
    · unfold SMP.handle at h
      dsimp only at h
      rw [hd, h4] at h
      cases h
    · exact .inl (abort he (hd.trans h4))
    all_goals
      unfold SMP.handle at h
      dsimp only at h
      rw [hd, h4] at h
      cases h
      exact .inr (.inr (.inr hm))
  by_cases h4 : t.typ = T4
  · have hd : dispatch E host t rnd c = handle4 E t c := by unfold dispatch; rw [if_neg h1, if_neg h2, if_neg h3, if_pos h4]
    rcases handle4_spec (E := E) (by rw [h4]; decide) c with ⟨e, he, h5⟩ | ⟨_, l, _, a3, Rb, _, _, h5⟩
    · exact .inl (abort he (hd.trans h5))
    · unfold SMP.handle at h
      dsimp only at h
      rw [hd, h5] at h
      by_cases hl : l = modpow Rb a3 E.dh.p
      · rw [if_pos hl] at h; cases h
      · rw [if_neg hl] at h; cases h
  · unfold SMP.handle dispatch at h
    dsimp only at h
    rw [if_neg h1, if_neg h2, if_neg h3, if_neg h4] at h
    split at h <;> rename_i hx <;> split at hx <;> cases hx
    all_goals cases h

/-- C107, OTRv3, the client that answers: the answer to the challenge, in the message in which it answers a request, is a random number
minus the challenge times the number of the secret.  Every secret could have led to this answer, and all in the same number of cases (or
one more).

Missing from C107: the other numbers in the messages, which depend on the secret too, but hide it only as far as the discrete logarithm is
hard. -/
theorem C107_otr3_partial {E : Env} (hG : SmpGroup E.dh) (hq : E.dh.q ≤ 256 ^ 192) {host : SMPHost} {t m : TLV} {rnd : Rand}
    {c c' : SMPContext} (h : handle E host t rnd c = (.ok (some m), c')) (hm : m.typ = 3) :
    ∃ secret key ch d, host.secret (question t) = some secret ∧ host.key = some key ∧ Answers3 m ch d ∧
      (d + ch * number3 E (compared3 c.their (fingerprint3 E key) c.ssid secret)) % E.dh.q = beNat (rnd.bytes [6] 192) % E.dh.q ∧
      ∃ k, 1 ≤ k ∧ ∀ n, k ≤ ways E.dh.q ch d n ∧ ways E.dh.q ch d n ≤ k + 1 := by
  have hq0 := hG.prime_q.pos
  rcases reply_cases3 hG h with h1 | ⟨ht, h1⟩ | ⟨ht, h1⟩ | h1
  · rw [hm] at h1; cases h1
  · rcases handle1_spec E host t rnd c with ⟨e, _, h2⟩ | ⟨_, h2⟩ | ⟨_, h2⟩ | ⟨key, answer, g2a, g3a, _, _, hs, hk, h2⟩
    · rw [h1] at h2; cases h2
    · rw [h1] at h2; cases h2
    · rw [h1] at h2; cases h2
    · rw [h1] at h2
      cases h2
      refine ⟨answer, key, _, _, hs, hk, ⟨_, numbers_w (by decide) (by simp [values2]) (values2_ok hG _ _ _ _), .inl ⟨rfl, rfl, rfl⟩⟩, ?_,
        _, Nat.div_pos hq hq0, fun n => ways_bounds hq0 _ _ n⟩
      rw [number3, number_mod]
      exact (response_back3 hq0 _ _ _).trans (Nat.mod_mod _ _)
  · rcases handle2_spec hG (by rw [ht]; decide) rnd c with ⟨e, _, h2⟩ | ⟨_, _, _, _, _, _, _, _, _, _, _, _, _, _, _, h2⟩
    · rw [h1] at h2; cases h2
    · rw [h1] at h2
      cases h2
      cases hm
  · rw [hm] at h1; cases h1

/-- C107, OTRv3, the client that asked: the same holds for its second message. -/
theorem C107_otr3_asking_partial {E : Env} (hG : SmpGroup E.dh) (hq : E.dh.q ≤ 256 ^ 192) {host host' : SMPHost} {key : DSAPublicKey}
    {secret q : Bytes} {m1 t m : TLV} {rnd rnd' : Rand} {c c1 c2 : SMPContext} (hk : host.key = some key)
    (h1 : start E host secret q rnd c = (.ok m1, c1)) (h2 : handle E host' t rnd' c1 = (.ok (some m), c2)) (hm : m.typ = 4) :
    ∃ ch d, Answers3 m ch d ∧
      (d + ch * number3 E (compared3 (fingerprint3 E key) c.their c.ssid secret)) % E.dh.q = beNat (rnd'.bytes [2] 192) % E.dh.q ∧
      ∃ k, 1 ≤ k ∧ ∀ n, k ≤ ways E.dh.q ch d n ∧ ways E.dh.q ch d n ≤ k + 1 := by
  have hq0 := hG.prime_q.pos
  have hs1 : ∃ a2 a3, c1.state = .expect2 (SMP.computeSecret E (fingerprint3 E key) c.their c.ssid secret) a2 a3 := by
    unfold SMP.start at h1
    dsimp only at h1
    rw [hk] at h1
    split at h1
    · cases h1; exact ⟨_, _, rfl⟩
    · cases h1
  obtain ⟨a2, a3, hst⟩ := hs1
  rcases reply_cases3 hG h2 with h | ⟨ht, h⟩ | ⟨ht, h⟩ | h
  · rw [hm] at h; cases h
  · unfold SMP.handle1 at h
    rw [hst] at h
    cases h
  · rcases handle2_spec hG (by rw [ht]; decide) rnd' c1 with ⟨e, _, h3⟩ | ⟨x, _, _, _, _, _, _, _, _, hst', _, _, _, _, _, h3⟩
    · rw [h] at h3; cases h3
    · rw [h] at h3
      cases h3
      rw [hst] at hst'
      cases hst'
      refine ⟨_, _, ⟨_, numbers_w (by decide) (by simp [values3]) (values3_ok hG _ _ _ _ _ _), .inr ⟨rfl, rfl, rfl⟩⟩, ?_,
        _, Nat.div_pos hq hq0, fun n => ways_bounds hq0 _ _ n⟩
      rw [number3, number_mod]
      exact (response_back3 hq0 _ _ _).trans (Nat.mod_mod _ _)
  · rw [hm] at h; cases h

/-- Both clients of an exchange; and in the group of the code, every secret leads to the answer in two or three cases. -/
example : (∃ secret key ch d, (ToySmp.hostB ToySmp.s).secret (question ToySmp.m1) = some secret ∧ (ToySmp.hostB ToySmp.s).key = some key ∧
      Answers3 ToySmp.m2 ch d ∧ (d + ch * number3 smallEnv (compared3 ToySmp.B0.their (fingerprint3 smallEnv key) ToySmp.B0.ssid secret)) %
        smallEnv.dh.q = beNat ((smallRand 1).bytes [6] 192) % smallEnv.dh.q ∧
      ∃ k, 1 ≤ k ∧ ∀ n, k ≤ ways smallEnv.dh.q ch d n ∧ ways smallEnv.dh.q ch d n ≤ k + 1) ∧
    (∃ ch d, Answers3 ToySmp.m3 ch d) ∧ dh1536.q ≤ 256 ^ 192 ∧ 256 ^ 192 / dh1536.q = 2 :=
  ⟨C107_otr3_partial toy_smpGroup (by decide +kernel) ToySmp.r2 (by decide +kernel),
   (C107_otr3_asking_partial toy_smpGroup (by decide +kernel) rfl ToySmp.r1 ToySmp.r3 (by decide +kernel)).imp
     fun _ h => h.imp fun _ h => h.1,
   by decide +kernel, by decide +kernel⟩

end v3


end Otrr.Props
