import Verif.Lemmas.Smp
/-!
What each step of SMP in OTRv3 does, in terms of the specification.
-/

namespace Otrr
open Spec

/-- All errors of a decoder are `e`. -/
def Dec.OnlyErr (d : Dec α) (e : OTRError) : Prop := ∀ s e', d s = .err e' → e' = e

namespace Dec.OnlyErr

theorem pure (a : α) (e : OTRError) : (Pure.pure a : Dec α).OnlyErr e := by
  intro s e' h; simp at h

theorem bind {d : Dec α} {f : α → Dec β} {e : OTRError} (h : d.OnlyErr e) (hf : ∀ a, (f a).OnlyErr e) :
    (d >>= f).OnlyErr e := by
  intro s e' he
  rw [Dec.bind_run] at he
  split at he
  · exact hf _ _ _ he
  · rename_i h'; cases he; exact h _ _ h'
  · cases he

theorem readN (n : Nat) : (Otrr.readN n).OnlyErr .incompleteMessage := by
  intro s e' h
  unfold Otrr.readN at h
  split at h <;> simp at h
  exact h.symm

theorem readU32 : (Otrr.readU32).OnlyErr .incompleteMessage := (readN 4).bind fun _ => pure _ _

theorem readMpi : (Otrr.readMpi).OnlyErr .incompleteMessage := by
  refine readU32.bind fun l => ?_
  split
  · exact pure _ _
  · exact (readN _).bind fun _ => pure _ _

theorem readMpis (n : Nat) : (Otrr.readMpis n).OnlyErr .incompleteMessage := by
  induction n with
  | zero => exact pure _ _
  | succ n ih => exact readMpi.bind fun _ => ih.bind fun _ => pure _ _

theorem readMpiSequence : (Otrr.readMpiSequence).OnlyErr .incompleteMessage := readU32.bind fun _ => readMpis _

end Dec.OnlyErr

namespace SMP

theorem seq_cases (s : Bytes) : (∃ v, runDec readMpiSequence s = .ok v) ∨
    runDec readMpiSequence s = .err .incompleteMessage := by
  unfold runDec
  have h1 := Dec.OnlyErr.readMpiSequence s
  have h2 := (readMpiSequence_safe s).1
  split
  · exact .inl ⟨_, rfl⟩
  · rename_i e h; rw [h1 _ h]; exact .inr rfl
  · rename_i h; exact absurd h h2

theorem numbers_w {typ : UInt16} (ht : typ ≠ 7) {ms : List Nat} (hl : ms.length < 2 ^ 32) (h : ∀ m ∈ ms, mpiOk m) :
    numbers ⟨typ, wMpiSequence ms⟩ = .ok ms := by
  have := readMpiSequence_w hl h []
  rw [List.append_nil] at this
  simp [numbers, ht, runDec, this]

theorem readMessage1_cases (t : TLV) :
    (∃ ms, readMessage1 t = .ok (question t, ms) ∧ numbers t = .ok ms ∧ ms.length = 6) ∨
    readMessage1 t = .err .protocolViolation ∨ readMessage1 t = .err .incompleteMessage := by
  have key : ∀ (q : Bytes) (s : Bytes), runDec readMpiSequence s = numbers t → q = question t →
      (∃ ms, runDec (do
        let ms ← readMpiSequence
        if ms.length ≠ 6 then Dec.fail .protocolViolation
        else do
          decDone
          pure (q, ms)) s = .ok (question t, ms) ∧ numbers t = .ok ms ∧ ms.length = 6) ∨
      runDec (do
        let ms ← readMpiSequence
        if ms.length ≠ 6 then Dec.fail .protocolViolation
        else do
          decDone
          pure (q, ms)) s = .err .protocolViolation ∨
      runDec (do
        let ms ← readMpiSequence
        if ms.length ≠ 6 then Dec.fail .protocolViolation
        else do
          decDone
          pure (q, ms)) s = .err .incompleteMessage := by
    intro q s hn hq
    have h1 := Dec.OnlyErr.readMpiSequence s
    have h2 := (readMpiSequence_safe s).1
    simp only [runDec, Dec.bind_run] at hn ⊢
    cases hr : readMpiSequence s with
    | panic => exact absurd hr h2
    | err e => right; right; simp [h1 _ hr]
    | ok a =>
      obtain ⟨ms, rest⟩ := a
      rw [hr] at hn
      simp only at hn
      by_cases hl : ms.length = 6
      · simp only [hl, ne_eq, not_true_eq_false, if_false, Dec.bind_run, decDone]
        by_cases hz : rest = []
        · left; exact ⟨ms, by simp [hz, hq], hn.symm, hl⟩
        · right; left; simp [hz]
      · right; left; simp [hl]
  unfold readMessage1
  by_cases h7 : t.typ = T1Q
  · have h7' : t.typ = 7 := h7
    simp only [h7, if_true]
    have hb : ∀ (f : Bytes → Dec (Bytes × List Nat)), runDec (readNullTerminated >>= f) t.value =
        runDec (f (question t)) ((t.value.dropWhile (· != 0)).drop 1) := by
      intro f
      simp [runDec, Dec.bind_run, readNullTerminated, question, h7']
    rw [hb]
    exact key _ _ (by simp [numbers, h7']) rfl
  · have h7' : ¬ t.typ = 7 := h7
    simp only [h7, if_false]
    exact key [] _ (by simp [numbers, h7']) (by simp [question, h7'])

theorem readNumbers_cases {t : TLV} (ht : t.typ ≠ 7) (n : Nat) :
    (∃ ms, readNumbers n t = .ok ms ∧ numbers t = .ok ms ∧ ms.length = n) ∨
    readNumbers n t = .err .protocolViolation ∨ readNumbers n t = .err .incompleteMessage := by
  have hn : numbers t = runDec readMpiSequence t.value := by simp [numbers, ht]
  unfold readNumbers
  rcases seq_cases t.value with ⟨v, hv⟩ | hv
  · rw [hv] at hn ⊢
    by_cases hl : v.length = n
    · left; exact ⟨v, by simp [hl], hn, hl⟩
    · right; left; simp [hl]
  · right; right; rw [hv]; rfl

section checks
variable {E : Env}

theorem verify_ok {a b : Nat} : DH.verify a b = .ok () ↔ a = b := by unfold DH.verify; split <;> simp [*]
theorem verify_err {a b : Nat} : DH.verify a b ≠ .ok () → DH.verify a b = .err .cryptographicViolation := by
  unfold DH.verify; split <;> simp
theorem exponent_ok {G : DHGroup} {e : Nat} : DH.verifyExponent G e = .ok () ↔ Exponent G e := by
  unfold DH.verifyExponent Exponent; split <;> simp_all
theorem element_ok {G : DHGroup} {e : Nat} : DH.verifyPublicKey G e = .ok () ↔ Element G e := by
  unfold DH.verifyPublicKey Element; split <;> simp_all

/-- A check: it succeeds, or reports a cryptographic violation. -/
def Check (x : Res Unit) : Prop := x = .ok () ∨ x = .err .cryptographicViolation

theorem Check.verify (a b : Nat) : Check (DH.verify a b) := by unfold DH.verify Check; split <;> simp
theorem Check.exponent (G : DHGroup) (a : Nat) : Check (DH.verifyExponent G a) := by
  unfold DH.verifyExponent Check; split <;> simp
theorem Check.element (G : DHGroup) (a : Nat) : Check (DH.verifyPublicKey G a) := by
  unfold DH.verifyPublicKey Check; split <;> simp
theorem Check.bind {x y : Res Unit} (hx : Check x) (hy : Check y) : Check (x >>= fun _ => y) := by
  rcases hx with h | h <;> subst h
  · exact hy
  · exact .inr rfl

theorem check1_check (g2a c2 D2 g3a c3 D3 : Nat) : Check (check1 E g2a c2 D2 g3a c3 D3) :=
  (Check.exponent _ _).bind <| (Check.exponent _ _).bind <| (Check.element _ _).bind <| (Check.element _ _).bind <|
    (Check.verify _ _).bind (Check.verify _ _)

theorem check2_check (a2 a3 g2b c2 D2 g3b c3 D3 Pb Qb cP D5 D6 : Nat) :
    Check (check2 E a2 a3 g2b c2 D2 g3b c3 D3 Pb Qb cP D5 D6) :=
  (Check.exponent _ _).bind <| (Check.exponent _ _).bind <| (Check.exponent _ _).bind <| (Check.exponent _ _).bind <|
    (Check.element _ _).bind <| (Check.element _ _).bind <| (Check.element _ _).bind <| (Check.element _ _).bind <|
    (Check.verify _ _).bind <| (Check.verify _ _).bind (Check.verify _ _)

theorem check3_check (g2 g3 Pa Qa cP D5 D6 Ra D7 : Nat) : Check (check3 E g2 g3 Pa Qa cP D5 D6 Ra D7) :=
  (Check.exponent _ _).bind <| (Check.exponent _ _).bind <| (Check.exponent _ _).bind <|
    (Check.element _ _).bind <| (Check.element _ _).bind <| (Check.element _ _).bind <| Check.verify _ _

theorem provesLog_iff {tag : UInt8} {X c D : Nat} :
    ProvesLog E tag X c D ↔ hash1 E tag (pow2 E.dh E.dh.g D X c) = c := by
  rw [ProvesLog, hash1, pow2_eq, eq_comm]

theorem provesPQ_iff {tag : UInt8} {g2 g3 P Q c D5 D6 : Nat} :
    ProvesPQ E tag g2 g3 P Q c D5 D6 ↔
      hash2 E tag (pow2 E.dh g3 D5 P c) (pow3 E.dh E.dh.g D5 g2 D6 Q c) = c := by
  rw [ProvesPQ, hash2, pow2_eq, pow3_eq, eq_comm]

theorem provesR_iff {tag : UInt8} {X k R c D : Nat} :
    ProvesR E tag X k R c D ↔ hash2 E tag (pow2 E.dh E.dh.g D X c) (pow2 E.dh k D R c) = c := by
  rw [ProvesR, hash2, pow2_eq, pow2_eq, eq_comm]

/-- Reducing the bases changes nothing. -/
theorem provesPQ_mod {tag : UInt8} {g2 a g3 b P Q c D5 D6 : Nat} :
    ProvesPQ E tag (modpow g2 a E.dh.p) (modpow g3 b E.dh.p) P Q c D5 D6 ↔
      ProvesPQ E tag (g2 ^ a) (g3 ^ b) P Q c D5 D6 := by
  have e1 : (modpow g3 b E.dh.p) ^ D5 * P ^ c % E.dh.p = (g3 ^ b) ^ D5 * P ^ c % E.dh.p := by
    rw [modpow, Nat.mul_mod, ← Nat.pow_mod, ← Nat.mul_mod]
  have e2 : E.dh.g ^ D5 * (modpow g2 a E.dh.p) ^ D6 * Q ^ c % E.dh.p = E.dh.g ^ D5 * (g2 ^ a) ^ D6 * Q ^ c % E.dh.p := by
    have e : E.dh.g ^ D5 * (modpow g2 a E.dh.p) ^ D6 % E.dh.p = E.dh.g ^ D5 * (g2 ^ a) ^ D6 % E.dh.p := by
      rw [modpow, Nat.mul_mod, ← Nat.pow_mod, ← Nat.mul_mod]
    rw [Nat.mul_mod, e, ← Nat.mul_mod]
  rw [ProvesPQ, ProvesPQ, e1, e2]

theorem exUnit {P : Unit → Prop} : (∃ u, P u) ↔ P () := ⟨fun ⟨_, h⟩ => h, fun h => ⟨_, h⟩⟩

theorem check1_ok {g2a c2 D2 g3a c3 D3 : Nat} : check1 E g2a c2 D2 g3a c3 D3 = .ok () ↔
    Proper1 E.dh [g2a, c2, D2, g3a, c3, D3] ∧ ProvesLog E 1 g2a c2 D2 ∧ ProvesLog E 2 g3a c3 D3 := by
  simp only [check1, Res.bind_eq_ok, exUnit, verify_ok, exponent_ok, element_ok, Proper1, provesLog_iff]
  tauto

theorem check2_ok {a2 a3 g2b c2 D2 g3b c3 D3 Pb Qb cP D5 D6 : Nat} :
    check2 E a2 a3 g2b c2 D2 g3b c3 D3 Pb Qb cP D5 D6 = .ok () ↔
    Proper2 E.dh [g2b, c2, D2, g3b, c3, D3, Pb, Qb, cP, D5, D6] ∧
    ProvesLog E 3 g2b c2 D2 ∧ ProvesLog E 4 g3b c3 D3 ∧ ProvesPQ E 5 (g2b ^ a2) (g3b ^ a3) Pb Qb cP D5 D6 := by
  simp only [check2, Res.bind_eq_ok, exUnit, verify_ok, exponent_ok, element_ok, Proper2, provesLog_iff,
    ← provesPQ_mod]
  rw [provesPQ_iff]
  tauto

theorem check3_ok {g2 g3 Pa Qa cP D5 D6 Ra cR D7 : Nat} :
    check3 E g2 g3 Pa Qa cP D5 D6 Ra D7 = .ok () ↔
    Proper3 E.dh [Pa, Qa, cP, D5, D6, Ra, cR, D7] ∧ ProvesPQ E 6 g2 g3 Pa Qa cP D5 D6 := by
  simp only [check3, Res.bind_eq_ok, exUnit, verify_ok, exponent_ok, element_ok, Proper3, provesPQ_iff]
  rw [eq_comm (a := cP)]
  tauto

end checks

/-- An error of a step that ends the exchange with an abort TLV. -/
def Plain (e : OTRError) : Prop := e = .protocolViolation ∨ e = .incompleteMessage ∨ e = .cryptographicViolation

theorem len6 {l : List Nat} (h : l.length = 6) : ∃ a b c d e f, l = [a, b, c, d, e, f] := by
  match l, h with
  | [a, b, c, d, e, f], _ => exact ⟨_, _, _, _, _, _, rfl⟩

theorem len11 {l : List Nat} (h : l.length = 11) :
    ∃ a b c d e f a' b' c' d' e', l = [a, b, c, d, e, f, a', b', c', d', e'] := by
  match l, h with
  | [a, b, c, d, e, f, a', b', c', d', e'], _ => exact ⟨_, _, _, _, _, _, _, _, _, _, _, rfl⟩

theorem len8 {l : List Nat} (h : l.length = 8) : ∃ a b c d e f g k, l = [a, b, c, d, e, f, g, k] := by
  match l, h with
  | [a, b, c, d, e, f, g, k], _ => exact ⟨_, _, _, _, _, _, _, _, rfl⟩

theorem len3 {l : List Nat} (h : l.length = 3) : ∃ a b c, l = [a, b, c] := by
  match l, h with
  | [a, b, c], _ => exact ⟨_, _, _, rfl⟩

section steps
variable {E : Env} {host : SMPHost} {t : TLV} {rnd : Rand} {c : SMPContext}

/-- What message 1 leads to in a context that accepts it. -/
def after1 (E : Env) (key : DSAPublicKey) (answer : Bytes) (g2a g3a : Nat) (rnd : Rand) (c : SMPContext) :
    TLV × SMPContext :=
  let e := Exps2.draw E rnd
  let y := computeSecret E c.their (fingerprint3 E key) c.ssid answer
  let g2 := modpow g2a e.b2 E.dh.p
  let g3 := modpow g3a e.b3 E.dh.p
  (⟨T2, wMpiSequence (values2 E g2 g3 y e)⟩,
    { c with
      status := .inProgress
      state := .expect3 g3a g2 g3 e.b3 (modpow g3 e.r4 E.dh.p) (pow2 E.dh E.dh.g e.r4 g2 y) })

theorem handle1_spec (E : Env) (host : SMPHost) (t : TLV) (rnd : Rand) (c : SMPContext) :
    (∃ e, Plain e ∧ handle1 E host t rnd c = .err e) ∨
    (host.secret (question t) = .none ∧ handle1 E host t rnd c = .err (.smpAborted true)) ∨
    (host.key = .none ∧ handle1 E host t rnd c = .panic) ∨
    (∃ key answer g2a g3a, c.state = .expect1 ∧ Checked1 E g2a g3a t ∧ host.secret (question t) = some answer ∧
      host.key = some key ∧ handle1 E host t rnd c = .ok (after1 E key answer g2a g3a rnd c)) := by
  unfold handle1
  split
  · rename_i hst
    rcases readMessage1_cases t with ⟨ms, h1, h2, h3⟩ | h | h
    · obtain ⟨g2a, c2, D2, g3a, c3, D3, rfl⟩ := len6 h3
      rw [h1]
      simp only [Res.bind_ok]
      rcases check1_check (E := E) g2a c2 D2 g3a c3 D3 with hc | hc
      · rw [hc]
        have hok := check1_ok.mp hc
        simp only [Res.bind_ok]
        cases hs : host.secret (question t) with
        | none => right; left; exact ⟨rfl, rfl⟩
        | some answer =>
          cases hk : host.key with
          | none => right; right; left; exact ⟨rfl, rfl⟩
          | some key =>
            right; right; right
            exact ⟨key, answer, g2a, g3a, hst, ⟨c2, D2, c3, D3, h2, hok⟩, rfl, rfl, rfl⟩
      · left; rw [hc]; exact ⟨_, .inr (.inr rfl), rfl⟩
    · left; rw [h]; exact ⟨_, .inl rfl, rfl⟩
    · left; rw [h]; exact ⟨_, .inr (.inl rfl), rfl⟩
  · left; exact ⟨_, .inl rfl, rfl⟩

/-- What message 2 leads to in a context that accepts it. -/
def after2 (E : Env) (x a2 a3 g2b g3b k l : Nat) (rnd : Rand) (c : SMPContext) : TLV × SMPContext :=
  (⟨T3, wMpiSequence (values3 E (modpow g2b a2 E.dh.p) (modpow g3b a3 E.dh.p) x a3 k (Exps3.draw E rnd))⟩,
    { c with state := .expect4 g3b l k a3 })

theorem handle2_spec (hG : SmpGroup E.dh) (ht : t.typ ≠ 7) (rnd : Rand) (c : SMPContext) :
    (∃ e, Plain e ∧ handle2 E t rnd c = .err e) ∨
    (∃ x a2 a3 g2b g3b Pb Qb k l, c.state = .expect2 x a2 a3 ∧ Checked2 E a2 a3 g2b g3b Pb Qb t ∧
      k < E.dh.p ∧ l < E.dh.p ∧
      (k : ZMod E.dh.p) * Qb = (pow2 E.dh E.dh.g (Exps3.draw E rnd).r4 (modpow g2b a2 E.dh.p) x : Nat) ∧
      (l : ZMod E.dh.p) * Pb = (modpow (modpow g3b a3 E.dh.p) (Exps3.draw E rnd).r4 E.dh.p : Nat) ∧
      handle2 E t rnd c = .ok (after2 E x a2 a3 g2b g3b k l rnd c)) := by
  unfold handle2
  split
  · rename_i x a2 a3 hst
    rcases readNumbers_cases ht 11 with ⟨ms, h1, h2, h3⟩ | h | h
    · obtain ⟨g2b, c2, D2, g3b, c3, D3, Pb, Qb, cP, D5, D6, rfl⟩ := len11 h3
      rw [h1]
      simp only [Res.bind_ok]
      rcases check2_check (E := E) a2 a3 g2b c2 D2 g3b c3 D3 Pb Qb cP D5 D6 with hc | hc
      · rw [hc]
        have hok := check2_ok.mp hc
        have hp := hok.1
        simp only [Proper2] at hp
        obtain ⟨k, k1, k2, k3⟩ := div_ok hG (pow2 E.dh E.dh.g (Exps3.draw E rnd).r4 (modpow g2b a2 E.dh.p) x)
          (elem_ne_zero hG hp.2.2.2.1)
        obtain ⟨l, l1, l2, l3⟩ := div_ok hG (modpow (modpow g3b a3 E.dh.p) (Exps3.draw E rnd).r4 E.dh.p)
          (elem_ne_zero hG hp.2.2.1)
        simp only [Res.bind_ok, k1, l1]
        right
        exact ⟨x, a2, a3, g2b, g3b, Pb, Qb, k, l, hst, ⟨c2, D2, c3, D3, cP, D5, D6, h2, hok⟩, k2, l2, k3, l3, rfl⟩
      · left; rw [hc]; exact ⟨_, .inr (.inr rfl), rfl⟩
    · left; rw [h]; exact ⟨_, .inl rfl, rfl⟩
    · left; rw [h]; exact ⟨_, .inr (.inl rfl), rfl⟩
  · left; exact ⟨_, .inl rfl, rfl⟩

/-- Message 4, in answer to message 3. -/
def reply4 (E : Env) (k b3 : Nat) (rnd : Rand) : TLV := ⟨T4, wMpiSequence (values4 E k b3 (random E rnd 0))⟩

theorem handle3_spec (hG : SmpGroup E.dh) (ht : t.typ ≠ 7) (rnd : Rand) (c : SMPContext)
    (hst : ∀ g3a g2 g3 b3 Pb Qb, c.state = .expect3 g3a g2 g3 b3 Pb Qb →
      (Pb : ZMod E.dh.p) ≠ 0 ∧ (Qb : ZMod E.dh.p) ≠ 0) :
    (∃ e, Plain e ∧ handle3 E t rnd c = .err e) ∨
    (∃ g3a g2 g3 b3 Pb Qb Pa Qa Ra cP D5 D6 cR D7 k l, c.state = .expect3 g3a g2 g3 b3 Pb Qb ∧
      numbers t = .ok [Pa, Qa, cP, D5, D6, Ra, cR, D7] ∧ Proper3 E.dh [Pa, Qa, cP, D5, D6, Ra, cR, D7] ∧
      ProvesPQ E 6 g2 g3 Pa Qa cP D5 D6 ∧ ProvesR E 7 g3a k Ra cR D7 ∧ k < E.dh.p ∧ l < E.dh.p ∧
      (k : ZMod E.dh.p) * Qb = Qa ∧ (l : ZMod E.dh.p) * Pb = Pa ∧
      handle3 E t rnd c = .err (if l = modpow Ra b3 E.dh.p then .smpSuccess (some (reply4 E k b3 rnd))
        else .smpFailed (some (reply4 E k b3 rnd)))) := by
  unfold handle3
  split
  · rename_i g3a g2 g3 b3 Pb Qb hs
    obtain ⟨hP, hQ⟩ := hst _ _ _ _ _ _ hs
    rcases readNumbers_cases ht 8 with ⟨ms, h1, h2, h3⟩ | h | h
    · obtain ⟨Pa, Qa, cP, D5, D6, Ra, cR, D7, rfl⟩ := len8 h3
      rw [h1]
      simp only [Res.bind_ok]
      rcases check3_check (E := E) g2 g3 Pa Qa cP D5 D6 Ra D7 with hc | hc
      · rw [hc]
        have hok := (check3_ok (cR := cR)).mp hc
        obtain ⟨k, k1, k2, k3⟩ := div_ok hG Qa hQ
        obtain ⟨l, l1, l2, l3⟩ := div_ok hG Pa hP
        simp only [Res.bind_ok, k1, l1]
        rcases Check.verify cR (hash2 E 7 (pow2 E.dh E.dh.g D7 g3a cR) (pow2 E.dh k D7 Ra cR)) with hv | hv
        · rw [hv]
          simp only [Res.bind_ok]
          right
          refine ⟨g3a, g2, g3, b3, Pb, Qb, Pa, Qa, Ra, cP, D5, D6, cR, D7, k, l, hs, h2, hok.1, hok.2,
            provesR_iff.mpr (verify_ok.mp hv).symm, k2, l2, k3, l3, ?_⟩
          split <;> rfl
        · left; rw [hv]; exact ⟨_, .inr (.inr rfl), rfl⟩
      · left; rw [hc]; exact ⟨_, .inr (.inr rfl), rfl⟩
    · left; rw [h]; exact ⟨_, .inl rfl, rfl⟩
    · left; rw [h]; exact ⟨_, .inr (.inl rfl), rfl⟩
  · left; exact ⟨_, .inl rfl, rfl⟩

theorem handle4_spec (ht : t.typ ≠ 7) (c : SMPContext) :
    (∃ e, Plain e ∧ handle4 E t c = .err e) ∨
    (∃ g3b l k a3 Rb, c.state = .expect4 g3b l k a3 ∧ Checked4 E g3b k Rb t ∧
      handle4 E t c = .err (if l = modpow Rb a3 E.dh.p then .smpSuccess .none else .smpFailed .none)) := by
  unfold handle4
  split
  · rename_i g3b l k a3 hs
    rcases readNumbers_cases ht 3 with ⟨ms, h1, h2, h3⟩ | h | h
    · obtain ⟨Rb, cR, D7, rfl⟩ := len3 h3
      rw [h1]
      simp only [Res.bind_ok]
      rcases Check.exponent E.dh D7 with hd | hd
      · rw [hd]
        simp only [Res.bind_ok]
        rcases Check.element E.dh Rb with he | he
        · rw [he]
          simp only [Res.bind_ok]
          rcases Check.verify (hash2 E 8 (pow2 E.dh E.dh.g D7 g3b cR) (pow2 E.dh k D7 Rb cR)) cR with hv | hv
          · rw [hv]
            simp only [Res.bind_ok]
            right
            refine ⟨g3b, l, k, a3, Rb, hs, ⟨cR, D7, h2, ⟨element_ok.mp he, exponent_ok.mp hd⟩,
              provesR_iff.mpr (verify_ok.mp hv)⟩, ?_⟩
            split <;> rfl
          · left; rw [hv]; exact ⟨_, .inr (.inr rfl), rfl⟩
        · left; rw [he]; exact ⟨_, .inr (.inr rfl), rfl⟩
      · left; rw [hd]; exact ⟨_, .inr (.inr rfl), rfl⟩
    · left; rw [h]; exact ⟨_, .inl rfl, rfl⟩
    · left; rw [h]; exact ⟨_, .inr (.inl rfl), rfl⟩
  · left; exact ⟨_, .inl rfl, rfl⟩

end steps

end SMP

end Otrr
