import Verif.Lemmas.SmpRun
/-!
Histories of an SMP context in OTRv3.
-/

namespace Otrr
open Spec

namespace SMP

/-- What is known after one message was handled. -/
inductive Step (E : Env) (host : SMPHost) (t : TLV) (rnd : Rand) (c : SMPContext) : Option TLV → SMPContext → Prop
  | abort (h : t.typ = TAbort) : Step E host t rnd c .none { c with status := .aborted, state := .expect1 }
  | declined (h : t.typ = T1 ∨ t.typ = T1Q) (hs : host.secret (question t) = .none) :
      Step E host t rnd c (some abortTlv) { c with status := .aborted, state := .expect1 }
  | rejected (h : t.typ ≠ TAbort) : Step E host t rnd c (some abortTlv) { c with status := .aborted, state := .expect1 }
  | one {key answer g2a g3a} (h : t.typ = T1 ∨ t.typ = T1Q) (hst : c.state = .expect1) (hc : Checked1 E g2a g3a t)
      (hs : host.secret (question t) = some answer) (hk : host.key = some key) :
      Step E host t rnd c (some (after1 E key answer g2a g3a rnd c).1) (after1 E key answer g2a g3a rnd c).2
  | two {x a2 a3 g2b g3b Pb Qb k l} (h : t.typ = T2) (hst : c.state = .expect2 x a2 a3)
      (hc : Checked2 E a2 a3 g2b g3b Pb Qb t) (hk : k < E.dh.p) (hl : l < E.dh.p)
      (hQ : (k : ZMod E.dh.p) * Qb = (pow2 E.dh E.dh.g (Exps3.draw E rnd).r4 (modpow g2b a2 E.dh.p) x : Nat))
      (hP : (l : ZMod E.dh.p) * Pb = (modpow (modpow g3b a3 E.dh.p) (Exps3.draw E rnd).r4 E.dh.p : Nat)) :
      Step E host t rnd c (some (after2 E x a2 a3 g2b g3b k l rnd c).1) (after2 E x a2 a3 g2b g3b k l rnd c).2
  | three {g3a g2 g3 b3 Pb Qb Pa Qa Ra cP D5 D6 cR D7 k l} (h : t.typ = T3)
      (hst : c.state = .expect3 g3a g2 g3 b3 Pb Qb) (hn : numbers t = .ok [Pa, Qa, cP, D5, D6, Ra, cR, D7])
      (hp : Proper3 E.dh [Pa, Qa, cP, D5, D6, Ra, cR, D7]) (h6 : ProvesPQ E 6 g2 g3 Pa Qa cP D5 D6)
      (h7 : ProvesR E 7 g3a k Ra cR D7) (hk : k < E.dh.p) (hl : l < E.dh.p) (hQ : (k : ZMod E.dh.p) * Qb = Qa)
      (hP : (l : ZMod E.dh.p) * Pb = Pa) :
      Step E host t rnd c (some (reply4 E k b3 rnd))
        { c with status := if l = modpow Ra b3 E.dh.p then .completed else .aborted, state := .expect1 }
  | four {g3b l k a3 Rb} (h : t.typ = T4) (hst : c.state = .expect4 g3b l k a3) (hc : Checked4 E g3b k Rb t) :
      Step E host t rnd c .none
        { c with status := if l = modpow Rb a3 E.dh.p then .completed else .aborted, state := .expect1 }

/-- The values stored for the comparison can be divided by. -/
def Nonzero (E : Env) (c : SMPContext) : Prop := ∀ g3a g2 g3 b3 Pb Qb, c.state = .expect3 g3a g2 g3 b3 Pb Qb →
  (Pb : ZMod E.dh.p) ≠ 0 ∧ (Qb : ZMod E.dh.p) ≠ 0

variable {E : Env} {host : SMPHost} {t : TLV} {rnd : Rand} {c : SMPContext}

theorem handle_plain {e : OTRError} (hd : dispatch E host t rnd c = .err e) (he : Plain e) :
    handle E host t rnd c = (.ok (some abortTlv), { c with status := .aborted, state := .expect1 }) := by
  rcases he with h | h | h <;> subst h <;> simp only [handle, hd]

/-- Messages of SMP are handled without a crash if the host has a key, as one of the steps. -/
theorem handle_step (hG : SmpGroup E.dh) (hz : Nonzero E c) (ht : isSmpTlv t = true) :
    (∃ r c', handle E host t rnd c = (.ok r, c') ∧ Step E host t rnd c r c') ∨
    (host.key = .none ∧ (t.typ = T1 ∨ t.typ = T1Q) ∧ (handle E host t rnd c).1 = .panic) := by
  by_cases h1 : t.typ = T1 ∨ t.typ = T1Q
  · have hd : dispatch E host t rnd c = handle1 E host t rnd c := by rw [dispatch, if_pos h1]
    have hna : t.typ ≠ TAbort := by rcases h1 with h | h <;> rw [h] <;> decide
    rcases handle1_spec E host t rnd c with ⟨e, he, h⟩ | ⟨hs, h⟩ | ⟨hk, h⟩ | ⟨key, answer, g2a, g3a, hst, hc, hs, hk, h⟩
    · exact .inl ⟨_, _, handle_plain (hd.trans h) he, .rejected hna⟩
    · refine .inl ⟨_, _, ?_, .declined h1 hs⟩
      simp only [handle, hd.trans h]
    · right; exact ⟨hk, h1, by simp only [handle, hd.trans h]⟩
    · refine .inl ⟨_, _, ?_, .one h1 hst hc hs hk⟩
      simp only [handle, hd.trans h]
  · have h7 : t.typ ≠ 7 := fun h => h1 (.inr h)
    left
    by_cases h2 : t.typ = T2
    · have hd : dispatch E host t rnd c = handle2 E t rnd c := by rw [dispatch, if_neg h1, if_pos h2]
      have hna : t.typ ≠ TAbort := by rw [h2]; decide
      rcases handle2_spec hG h7 rnd c with ⟨e, he, h⟩ | ⟨x, a2, a3, g2b, g3b, Pb, Qb, k, l, hst, hc, hk, hl, hQ, hP, h⟩
      · exact ⟨_, _, handle_plain (hd.trans h) he, .rejected hna⟩
      · exact ⟨_, _, by simp only [handle, hd.trans h], .two h2 hst hc hk hl hQ hP⟩
    · by_cases h3 : t.typ = T3
      · have hd : dispatch E host t rnd c = handle3 E t rnd c := by
          rw [dispatch, if_neg h1, if_neg h2, if_pos h3]
        have hna : t.typ ≠ TAbort := by rw [h3]; decide
        rcases handle3_spec hG h7 rnd c hz with ⟨e, he, h⟩ | ⟨g3a, g2, g3, b3, Pb, Qb, Pa, Qa, Ra, cP, D5, D6, cR, D7,
          k, l, hst, hn, hp, h6, h7', hk, hl, hQ, hP, h⟩
        · exact ⟨_, _, handle_plain (hd.trans h) he, .rejected hna⟩
        · refine ⟨_, _, ?_, .three h3 hst hn hp h6 h7' hk hl hQ hP⟩
          by_cases hcmp : l = modpow Ra b3 E.dh.p
          · simp only [handle, hd.trans h, if_pos hcmp]
          · simp only [handle, hd.trans h, if_neg hcmp]
      · by_cases h4 : t.typ = T4
        · have hd : dispatch E host t rnd c = handle4 E t c := by
            rw [dispatch, if_neg h1, if_neg h2, if_neg h3, if_pos h4]
          have hna : t.typ ≠ TAbort := by rw [h4]; decide
          rcases handle4_spec (E := E) h7 c with ⟨e, he, h⟩ | ⟨g3b, l, k, a3, Rb, hst, hc, h⟩
          · exact ⟨_, _, handle_plain (hd.trans h) he, .rejected hna⟩
          · refine ⟨_, _, ?_, .four h4 hst hc⟩
            by_cases hcmp : l = modpow Rb a3 E.dh.p
            · simp only [handle, hd.trans h, if_pos hcmp]
            · simp only [handle, hd.trans h, if_neg hcmp]
        · have h6 : t.typ = TAbort := by
            push Not at h1
            simp only [isSmpTlv, Bool.or_eq_true, beq_iff_eq] at ht
            tauto
          refine ⟨_, _, ?_, .abort h6⟩
          have hd : dispatch E host t rnd c = .err (.smpAborted false) := by
            rw [dispatch, if_neg h1, if_neg h2, if_neg h3, if_neg h4, if_pos h6]
          simp only [handle, hd]

theorem handle_smp {r : Option TLV} {c' : SMPContext} (h : handle E host t rnd c = (.ok r, c')) : isSmpTlv t = true := by
  by_contra hn
  simp only [isSmpTlv, Bool.or_eq_true, beq_iff_eq, not_or] at hn
  have hd : dispatch E host t rnd c = .panic := by
    rw [dispatch, if_neg (by tauto), if_neg (by tauto), if_neg (by tauto), if_neg (by tauto), if_neg (by tauto)]
  simp [handle, hd] at h

theorem handle_inv (hG : SmpGroup E.dh) (hz : Nonzero E c) {r : Option TLV} {c' : SMPContext}
    (h : handle E host t rnd c = (.ok r, c')) : Step E host t rnd c r c' := by
  rcases handle_step (host := host) (rnd := rnd) hG hz (handle_smp h) with ⟨r', c'', h', hs⟩ | ⟨_, _, h'⟩
  · rw [h] at h'; cases h'; exact hs
  · rw [h] at h'; cases h'

/-- How the state of a context follows from its history. -/
def Tied (E : Env) (h : List SmpEv) (c : SMPContext) : Prop :=
  match c.state with
  | .expect1 => c.status ≠ .inProgress
  | .expect2 _ a2 a3 => c.status = .inProgress ∧ ∃ h' m1, h = h' ++ [.started m1] ∧
      Sent1 (modpow E.dh.g a2 E.dh.p) (modpow E.dh.g a3 E.dh.p) m1
  | .expect3 g3a g2 g3 b3 Pb Qb => c.status = .inProgress ∧ ∃ h' m1 m2 g2a b2,
      h = h' ++ [.received m1 (some m2) .inProgress] ∧ Checked1 E g2a g3a m1 ∧
      g2 = modpow g2a b2 E.dh.p ∧ g3 = modpow g3a b3 E.dh.p ∧
      Sent2 (modpow E.dh.g b2 E.dh.p) (modpow E.dh.g b3 E.dh.p) Pb Qb m2 ∧
      (Pb : ZMod E.dh.p) ≠ 0 ∧ (Qb : ZMod E.dh.p) ≠ 0
  | .expect4 g3b l k a3 => c.status = .inProgress ∧ ∃ h' m1 m2 m3 a2 g2b Pb Qb Pa Qa Ra,
      h = h' ++ [.started m1, .received m2 (some m3) .inProgress] ∧
      Sent1 (modpow E.dh.g a2 E.dh.p) (modpow E.dh.g a3 E.dh.p) m1 ∧
      Checked2 E a2 a3 g2b g3b Pb Qb m2 ∧ Sent3 Pa Qa Ra m3 ∧ IsQuotient E.dh.p k Qa Qb ∧ IsQuotient E.dh.p l Pa Pb

theorem Tied.nonzero {h : List SmpEv} (ht : Tied E h c) : Nonzero E c := by
  intro g3a g2 g3 b3 Pb Qb hst
  rw [Tied, hst] at ht
  obtain ⟨_, h', m1, m2, g2a, b2, _, _, _, _, _, h1, h2⟩ := ht
  exact ⟨h1, h2⟩

theorem Tied.idle {h : List SmpEv} (ht : Tied E h c) : c.state = .expect1 ↔ c.status ≠ .inProgress := by
  constructor
  · intro hs; rw [Tied, hs] at ht; exact ht
  · intro hs
    unfold Tied at ht
    split at ht
    · assumption
    · exact absurd ht.1 hs
    · exact absurd ht.1 hs
    · exact absurd ht.1 hs

theorem gen_ne_zero (hG : SmpGroup E.dh) : (E.dh.g : ZMod E.dh.p) ≠ 0 := by
  have := Fact.mk hG.prime
  intro h
  have h1 := hG.gq
  rw [h, zero_pow hG.prime_q.ne_zero] at h1
  exact zero_ne_one h1

theorem life_tied (hG : SmpGroup E.dh) {h : List SmpEv} {c : SMPContext} (hl : SmpLife E h c) : Tied E h c := by
  have hp := Fact.mk hG.prime
  induction hl with
  | new ssid their => simp [Tied, SMP.new]
  | @started h c c' host secret q rnd t hl hs ih =>
    unfold start at hs
    split at hs
    · split at hs
      · cases hs
      · rename_i key hk
        obtain ⟨h1, h2⟩ := Prod.mk.inj hs
        subst h2
        refine ⟨rfl, h, t, rfl, ?_⟩
        have h1 := Res.ok.inj h1
        subst h1
        by_cases hq : q.isEmpty
        · simp only [hq, if_true]
          exact ⟨[], _, _, _, _, rfl⟩
        · simp only [hq]
          exact ⟨wNullTerminated q, _, _, _, _, rfl⟩
    · cases hs
  | @received h c c' host t rnd r hl hh ih =>
    have hstep := handle_inv hG ih.nonzero hh
    cases hstep with
    | abort => simp [Tied]
    | declined => simp [Tied]
    | rejected => simp [Tied]
    | @one key answer g2a g3a ht hst hc hs hk =>
      have hc' := hc
      obtain ⟨c2, D2, c3, D3, _, hp1, _⟩ := hc'
      simp only [Proper1] at hp1
      refine ⟨rfl, h, t, _, g2a, (Exps2.draw E rnd).b2, rfl, hc, rfl, rfl, ⟨_, _, _, _, _, _, _, rfl⟩, ?_, ?_⟩
      · rw [cast_modpow, cast_modpow]
        exact pow_ne_zero _ (pow_ne_zero _ (elem_ne_zero hG hp1.2.1))
      · rw [cast_pow2, cast_modpow]
        exact mul_ne_zero (pow_ne_zero _ (gen_ne_zero hG)) (pow_ne_zero _ (pow_ne_zero _ (elem_ne_zero hG hp1.1)))
    | @two x a2 a3 g2b g3b Pb Qb k l ht hst hc hk hl' hQ hP =>
      rw [Tied, hst] at ih
      obtain ⟨hin, h', m1, rfl, hs1⟩ := ih
      refine ⟨hin, h', m1, t, (after2 E x a2 a3 g2b g3b k l rnd c).1, a2, g2b, Pb, Qb, _, _, _, ?_, hs1, hc, ⟨_, _, _, _, _, rfl⟩, (quotient_iff _ _ _).mpr hQ,
        (quotient_iff _ _ _).mpr hP⟩
      simp only [after2, hin, List.append_assoc, List.cons_append, List.nil_append]
    | three => simp only [Tied]; split <;> simp
    | four => simp only [Tied]; split <;> simp
  | @aborted h c c' t hl ha ih =>
    cases ha
    simp [Tied]

end SMP

end Otrr
