import Verif.Lemmas.Smp4
/-!
What each message does to an SMP context in OTRv4, and histories of a context.
-/

namespace Otrr
open Spec Edwards

namespace SMP4

variable {E : Env} {host : SMPHost} {t : TLV} {rnd : Rand} {c : SMP4Context}

theorem cmp_ok {a b : Nat} : compareScalars a b = .ok () ↔ a ≠ 0 ∧ a = b := by
  unfold compareScalars
  by_cases ha : a = 0 <;> by_cases hb : b = 0 <;> simp [ha, hb]

theorem cmp_panic {a b : Nat} : compareScalars a b = .panic ↔ (a = 0 ↔ b ≠ 0) := by
  unfold compareScalars
  by_cases ha : a = 0 <;> by_cases hb : b = 0 <;> simp [ha, hb]
  split <;> simp

/-- The reply to message 1 and the context after it. -/
def after1 (E : Env) (answer : Bytes) (G2a G3a : Point) (rnd : Rand) (s : SMP4Context) : TLV × SMP4Context :=
  let e := draw2 E rnd
  let G2 := Point.mul E.curve G2a e.b2
  let G3 := Point.mul E.curve G3a e.b3
  let y := computeSecret E s.them s.us s.ssid answer
  (⟨T2, message2 E G2 G3 y e⟩,
    ⟨.expect3 G3a G2 G3 e.b3 (Point.mul E.curve G3 e.r4) (comb2 E.curve E.curve.G e.r4 G2 y), .inProgress, s.us, s.them, s.ssid⟩)

/-- The points a responder sends are not trivial. -/
def Good1 (E : Env) (answer : Bytes) (G2a G3a : Point) (rnd : Rand) (s : SMP4Context) : Prop :=
  let e := draw2 E rnd
  let G2 := Point.mul E.curve G2a e.b2
  let G3 := Point.mul E.curve G3a e.b3
  let y := computeSecret E s.them s.us s.ssid answer
  GoodKey E.curve G2 ∧ GoodKey E.curve G3 ∧ GoodKey E.curve (Point.mul E.curve G3 e.r4) ∧
    GoodKey E.curve (comb2 E.curve E.curve.G e.r4 G2 y)

/-- The reply to message 2 and the context after it. -/
def after2 (E : Env) (x0 a2 a3 : Nat) (G2b G3b Pb Qb : Point) (rnd : Rand) (s : SMP4Context) : TLV × SMP4Context :=
  let x := x0 % E.curve.q
  let G2 := Point.mul E.curve G2b a2
  let G3 := Point.mul E.curve G3b a3
  let e := draw3 E rnd
  let deltaP := sub E.curve (Point.mul E.curve G3 e.r4) Pb
  let deltaQ := sub E.curve (comb2 E.curve E.curve.G e.r4 G2 x) Qb
  (⟨T3, message3 E G2 G3 x a3 deltaQ e⟩, ⟨.expect4 G3b deltaP deltaQ a3, .inProgress, s.us, s.them, s.ssid⟩)

/-- The reply to message 3. -/
def reply4 (E : Env) (deltaQ : Point) (b3 : Nat) (rnd : Rand) : TLV := ⟨T4, message4 E deltaQ b3 (random E rnd 0)⟩

/-- The responder's final comparison. -/
def final (E : Env) (Ra : Point) (b3 : Nat) (Pa Pb : Point) : SMPStatus :=
  if comparePoints (Point.mul E.curve Ra b3) (sub E.curve Pa Pb) = .ok () then .completed else .aborted

theorem verify_ok {P : Point} (h : OnCurve E.curve P) : Point.verify E.curve P = .ok () ↔ GoodKey E.curve P := verify_iff h

theorem handle1_spec (hc : GoodCurve E.curve) (ht : t.typ = 2) (rnd : Rand) (s : SMP4Context) :
    (∃ e, handle1 E host t rnd s = .err e) ∨ (handle1 E host t rnd s = .panic ∧ Crashing E t s.state) ∨
    ∃ q answer G2a G3a, s.state = .expect1 ∧ Checked4_1 E q G2a G3a t ∧ host.secret q = some answer ∧
      Good1 E answer G2a G3a rnd s ∧
      handle1 E host t rnd s = .ok (some (after1 E answer G2a G3a rnd s).1, { (after1 E answer G2a G3a rnd s).2 with status := s.status }) := by
  have := Fact.mk hc.field.prime
  have := hc.field.good
  rw [handle1]
  dsimp only
  split
  case h_2 => exact .inl ⟨_, rfl⟩
  case h_1 hst =>
    cases hd : runDec (readMsg1 E.curve) t.value with
    | err e => exact .inl ⟨e, rfl⟩
    | panic => exact .inr (.inl ⟨rfl, .inl ((readMsg1_zero _).run hd)⟩)
    | ok m =>
      obtain ⟨b, hb, hl, hf, h1, h2, v1, v2⟩ := readMsg1_fields hc.field hd
      have hcar : Carries E.curve m.question (fields1 m.G2a m.c2 m.d2 m.G3a m.c3 m.d3) t := .inl ⟨ht, hl, b, hb, hf⟩
      have k1 := (verify_ok h1).mp v1
      have k2 := (verify_ok h2).mp v2
      simp only [Res.bind_ok]
      cases hch : check1 E m with
      | err e => exact .inl ⟨e, rfl⟩
      | panic =>
        refine .inr (.inl ⟨rfl, .inr ?_⟩)
        rw [hst]
        rcases Res.bind_eq_panic.mp hch with h | ⟨_, _, h⟩
        · exact ⟨_, _, .m1c2 hcar, by have := cmp_panic.mp h; constructor
                                      · intro h0 h1; exact (this.mp h1) h0
                                      · intro h0; by_contra h2; exact h0 (this.mpr h2)⟩
        · exact ⟨_, _, .m1c3 hcar, by have := cmp_panic.mp h; constructor
                                      · intro h0 h1; exact (this.mp h1) h0
                                      · intro h0; by_contra h2; exact h0 (this.mpr h2)⟩
      | ok u =>
        simp only [Res.bind_ok]
        obtain ⟨_, c1, c2⟩ := Res.bind_eq_ok.mp hch
        rw [cmp_ok] at c1 c2
        have hck : Checked4_1 E m.question m.G2a m.G3a t :=
          ⟨_, _, _, _, hcar, k1, k2, ⟨c1.2 ▸ c1.1, c1.2.symm⟩, ⟨c2.2 ▸ c2.1, c2.2.symm⟩⟩
        cases hs : host.secret m.question with
        | none => exact .inl ⟨_, rfl⟩
        | some answer =>
          simp only
          have o1 := (k1.inSub.mul (draw2 E rnd).b2)
          have o2 := (k2.inSub.mul (draw2 E rnd).b3)
          have o3 := (o2.mul (draw2 E rnd).r4)
          have o4 := InSub.comb2 (inSub_G hc) o1 (draw2 E rnd).r4 (computeSecret E s.them s.us s.ssid answer)
          by_cases g1 : GoodKey E.curve (Point.mul E.curve m.G2a (draw2 E rnd).b2)
          · rw [(verify_ok o1.1).mpr g1, Res.bind_ok]
            by_cases g2 : GoodKey E.curve (Point.mul E.curve m.G3a (draw2 E rnd).b3)
            · rw [(verify_ok o2.1).mpr g2, Res.bind_ok]
              by_cases g3 : GoodKey E.curve (Point.mul E.curve (Point.mul E.curve m.G3a (draw2 E rnd).b3) (draw2 E rnd).r4)
              · rw [(verify_ok o3.1).mpr g3, Res.bind_ok]
                by_cases g4 : GoodKey E.curve (comb2 E.curve E.curve.G (draw2 E rnd).r4 (Point.mul E.curve m.G2a (draw2 E rnd).b2)
                    (computeSecret E s.them s.us s.ssid answer))
                · rw [(verify_ok o4.1).mpr g4, Res.bind_ok]
                  exact .inr (.inr ⟨m.question, answer, m.G2a, m.G3a, hst, hck, hs, ⟨g1, g2, g3, g4⟩, rfl⟩)
                · left
                  cases hv : Point.verify E.curve (comb2 E.curve E.curve.G (draw2 E rnd).r4 (Point.mul E.curve m.G2a (draw2 E rnd).b2)
                    (computeSecret E s.them s.us s.ssid answer)) with
                  | ok => exact absurd ((verify_ok o4.1).mp hv) g4
                  | err e => exact ⟨e, rfl⟩
                  | panic => exact absurd hv (verify_ne_panic _ _)
              · left
                cases hv : Point.verify E.curve (Point.mul E.curve (Point.mul E.curve m.G3a (draw2 E rnd).b3) (draw2 E rnd).r4) with
                | ok => exact absurd ((verify_ok o3.1).mp hv) g3
                | err e => exact ⟨e, rfl⟩
                | panic => exact absurd hv (verify_ne_panic _ _)
            · left
              cases hv : Point.verify E.curve (Point.mul E.curve m.G3a (draw2 E rnd).b3) with
              | ok => exact absurd ((verify_ok o2.1).mp hv) g2
              | err e => exact ⟨e, rfl⟩
              | panic => exact absurd hv (verify_ne_panic _ _)
          · left
            cases hv : Point.verify E.curve (Point.mul E.curve m.G2a (draw2 E rnd).b2) with
            | ok => exact absurd ((verify_ok o1.1).mp hv) g1
            | err e => exact ⟨e, rfl⟩
            | panic => exact absurd hv (verify_ne_panic _ _)

theorem carries_of {cv : Curve} {v : List Field4} (ht : t.typ ≠ 2) (h : Fields cv v t.value) : Carries cv [] v t :=
  .inr ⟨ht, rfl, h⟩

theorem handle2_spec (hc : GoodCurve E.curve) (ht : t.typ ≠ 2) (rnd : Rand) (s : SMP4Context) :
    (∃ e, handle2 E t rnd s = .err e) ∨ (handle2 E t rnd s = .panic ∧ Crashing E t s.state) ∨
    ∃ x a2 a3 G2b G3b Pb Qb, s.state = .expect2 x a2 a3 ∧ Checked4_2 E a2 a3 G2b G3b Pb Qb t ∧
      handle2 E t rnd s = .ok (some (after2 E x a2 a3 G2b G3b Pb Qb rnd s).1,
        { (after2 E x a2 a3 G2b G3b Pb Qb rnd s).2 with status := s.status }) := by
  have := Fact.mk hc.field.prime
  have := hc.field.good
  rw [handle2]
  dsimp only
  split
  case h_2 => exact .inl ⟨_, rfl⟩
  case h_1 x a2 a3 hst =>
    cases hd : runDec (readMsg2 E.curve) t.value with
    | err e => exact .inl ⟨e, rfl⟩
    | panic => exact .inr (.inl ⟨rfl, .inl ((readMsg2_zero _).run hd)⟩)
    | ok m =>
      obtain ⟨hf, h1, h2, h3, h4⟩ := readMsg2_fields hc.field hd
      have hcar := carries_of ht hf
      simp only [Res.bind_ok]
      cases hch : check2 E a2 a3 m with
      | err e => exact .inl ⟨e, rfl⟩
      | panic =>
        refine .inr (.inl ⟨rfl, .inr ?_⟩)
        rw [hst]
        rcases Res.bind_eq_panic.mp hch with h | ⟨_, _, h⟩
        · exact absurd h (verify_ne_panic _ _)
        rcases Res.bind_eq_panic.mp h with h | ⟨_, _, h⟩
        · exact absurd h (verify_ne_panic _ _)
        rcases Res.bind_eq_panic.mp h with h | ⟨_, _, h⟩
        · exact ⟨_, _, .m2c2 hcar, cmp_panic.mp h⟩
        rcases Res.bind_eq_panic.mp h with h | ⟨_, _, h⟩
        · exact ⟨_, _, .m2c3 hcar, cmp_panic.mp h⟩
        rcases Res.bind_eq_panic.mp h with h | ⟨_, _, h⟩
        · exact absurd h (verify_ne_panic _ _)
        rcases Res.bind_eq_panic.mp h with h | ⟨_, _, h⟩
        · exact absurd h (verify_ne_panic _ _)
        · exact ⟨_, _, .m2cp hcar, cmp_panic.mp h⟩
      | ok u =>
        obtain ⟨_, c1, hch⟩ := Res.bind_eq_ok.mp hch
        obtain ⟨_, c2, hch⟩ := Res.bind_eq_ok.mp hch
        obtain ⟨_, c3, hch⟩ := Res.bind_eq_ok.mp hch
        obtain ⟨_, c4, hch⟩ := Res.bind_eq_ok.mp hch
        obtain ⟨_, c5, hch⟩ := Res.bind_eq_ok.mp hch
        obtain ⟨_, c6, c7⟩ := Res.bind_eq_ok.mp hch
        have k1 := (verify_ok h1).mp c1
        have k2 := (verify_ok h2).mp c2
        refine .inr (.inr ⟨x, a2, a3, m.G2b, m.G3b, m.Pb, m.Qb, hst, ⟨_, _, _, _, _, _, _, hcar, k1, k2, h3, h4,
          (verify_ok (k1.inSub.mul _).1).mp c5, (verify_ok (k2.inSub.mul _).1).mp c6, cmp_ok.mp c3, cmp_ok.mp c4, cmp_ok.mp c7⟩, ?_⟩)
        rfl

theorem handle3_spec (hc : GoodCurve E.curve) (ht : t.typ ≠ 2) (rnd : Rand) (s : SMP4Context) :
    (∃ e, handle3 E t rnd s = .err e) ∨ (handle3 E t rnd s = .panic ∧ Crashing E t s.state) ∨
    ∃ G3a G2 G3 b3 Pb Qb Pa Qa Ra, s.state = .expect3 G3a G2 G3 b3 Pb Qb ∧ Checked4_3 E G3a G2 G3 Qb Pa Qa Ra t ∧
      handle3 E t rnd s = .ok (some (reply4 E (sub E.curve Qa Qb) b3 rnd), { s with state := .expect1, status := final E Ra b3 Pa Pb }) := by
  rw [handle3]
  dsimp only
  split
  case h_2 => exact .inl ⟨_, rfl⟩
  case h_1 G3a G2 G3 b3 Pb Qb hst =>
    cases hd : runDec (readMsg3 E.curve) t.value with
    | err e => exact .inl ⟨e, rfl⟩
    | panic => exact .inr (.inl ⟨rfl, .inl ((readMsg3_zero _).run hd)⟩)
    | ok m =>
      obtain ⟨hf, h1, h2, h3⟩ := readMsg3_fields hc.field hd
      have hcar := carries_of ht hf
      simp only [Res.bind_ok]
      cases hch : check3 E G3a G2 G3 Qb m with
      | err e => exact .inl ⟨e, rfl⟩
      | panic =>
        refine .inr (.inl ⟨rfl, .inr ?_⟩)
        rw [hst]
        rcases Res.bind_eq_panic.mp hch with h | ⟨_, _, h⟩
        · exact absurd h (verify_ne_panic _ _)
        rcases Res.bind_eq_panic.mp h with h | ⟨_, _, h⟩
        · exact absurd h (verify_ne_panic _ _)
        rcases Res.bind_eq_panic.mp h with h | ⟨_, _, h⟩
        · exact absurd h (verify_ne_panic _ _)
        rcases Res.bind_eq_panic.mp h with h | ⟨_, _, h⟩
        · exact ⟨_, _, .m3cp hcar, cmp_panic.mp h⟩
        · exact ⟨_, _, .m3cr hcar, cmp_panic.mp h⟩
      | ok u =>
        obtain ⟨_, c1, hch⟩ := Res.bind_eq_ok.mp hch
        obtain ⟨_, c2, hch⟩ := Res.bind_eq_ok.mp hch
        obtain ⟨_, c3, hch⟩ := Res.bind_eq_ok.mp hch
        obtain ⟨_, c4, c5⟩ := Res.bind_eq_ok.mp hch
        refine .inr (.inr ⟨G3a, G2, G3, b3, Pb, Qb, m.Pa, m.Qa, m.Ra, hst, ⟨_, _, _, _, _, hcar, (verify_ok h1).mp c1,
          (verify_ok h2).mp c2, (verify_ok h3).mp c3, cmp_ok.mp c4, cmp_ok.mp c5⟩, ?_⟩)
        rfl

theorem handle4_spec (hc : GoodCurve E.curve) (ht : t.typ ≠ 2) (s : SMP4Context) :
    (∃ e, handle4 E t s = .err e) ∨ (handle4 E t s = .panic ∧ Crashing E t s.state) ∨
    ∃ G3b deltaP deltaQ a3 Rb, s.state = .expect4 G3b deltaP deltaQ a3 ∧ Checked4_4 E G3b deltaQ Rb t ∧
      comparePoints (Point.mul E.curve Rb a3) deltaP = .ok () ∧
      handle4 E t s = .ok (.none, { s with state := .expect1, status := .completed }) := by
  rw [handle4]
  dsimp only
  split
  case h_2 => exact .inl ⟨_, rfl⟩
  case h_1 G3b deltaP deltaQ a3 hst =>
    cases hd : runDec (readMsg4 E.curve) t.value with
    | err e => exact .inl ⟨e, rfl⟩
    | panic => exact .inr (.inl ⟨rfl, .inl ((readMsg4_zero _).run hd)⟩)
    | ok m =>
      obtain ⟨hf, h1⟩ := readMsg4_fields hc.field hd
      have hcar := carries_of ht hf
      simp only [Res.bind_ok]
      cases hch : check4 E G3b deltaQ m with
      | err e => exact .inl ⟨e, rfl⟩
      | panic =>
        refine .inr (.inl ⟨rfl, .inr ?_⟩)
        rw [hst]
        rcases Res.bind_eq_panic.mp hch with h | ⟨_, _, h⟩
        · exact absurd h (verify_ne_panic _ _)
        · exact ⟨_, _, .m4cr hcar, cmp_panic.mp h⟩
      | ok u =>
        obtain ⟨_, c1, c2⟩ := Res.bind_eq_ok.mp hch
        simp only [Res.bind_ok]
        cases hcm : comparePoints (Point.mul E.curve m.Rb a3) deltaP with
        | err e => exact .inl ⟨e, rfl⟩
        | panic => exact absurd hcm (compareBytes_ne_panic _ _)
        | ok u =>
          exact .inr (.inr ⟨G3b, deltaP, deltaQ, a3, m.Rb, hst, ⟨_, _, hcar, (verify_ok h1).mp c1, cmp_ok.mp c2⟩, hcm, rfl⟩)

/-- What is known after one message was handled. -/
inductive Step (E : Env) (host : SMPHost) (t : TLV) (rnd : Rand) (c : SMP4Context) : Option TLV → SMP4Context → Prop
  | abort (h : t.typ = TAbort) : Step E host t rnd c (some abortTlv) { c with state := .expect1, status := .aborted }
  | rejected (h : t.typ ≠ TAbort) : Step E host t rnd c .none { c with state := .expect1, status := .aborted }
  | one {q answer G2a G3a} (h : t.typ = T1) (hst : c.state = .expect1) (hc : Checked4_1 E q G2a G3a t)
      (hs : host.secret q = some answer) (hg : Good1 E answer G2a G3a rnd c) :
      Step E host t rnd c (some (after1 E answer G2a G3a rnd c).1) (after1 E answer G2a G3a rnd c).2
  | two {x a2 a3 G2b G3b Pb Qb} (h : t.typ = T2) (hst : c.state = .expect2 x a2 a3)
      (hc : Checked4_2 E a2 a3 G2b G3b Pb Qb t) :
      Step E host t rnd c (some (after2 E x a2 a3 G2b G3b Pb Qb rnd c).1) (after2 E x a2 a3 G2b G3b Pb Qb rnd c).2
  | three {G3a G2 G3 b3 Pb Qb Pa Qa Ra} (h : t.typ = T3) (hst : c.state = .expect3 G3a G2 G3 b3 Pb Qb)
      (hc : Checked4_3 E G3a G2 G3 Qb Pa Qa Ra t) :
      Step E host t rnd c (some (reply4 E (sub E.curve Qa Qb) b3 rnd)) { c with state := .expect1, status := final E Ra b3 Pa Pb }
  | four {G3b deltaP deltaQ a3 Rb} (h : t.typ = T4) (hst : c.state = .expect4 G3b deltaP deltaQ a3)
      (hc : Checked4_4 E G3b deltaQ Rb t) (hcmp : comparePoints (Point.mul E.curve Rb a3) deltaP = .ok ()) :
      Step E host t rnd c .none { c with state := .expect1, status := .completed }

/-- Messages of SMP are handled as one of the steps, or crash the client. -/
theorem handle_step (hc : GoodCurve E.curve) (ht : isSmpTlv t = true) :
    (∃ r c', handle E host t rnd c = (.ok r, c') ∧ Step E host t rnd c r c') ∨
    ((handle E host t rnd c).1 = .panic ∧ t.typ = awaited4 c.state ∧ Crashing E t c.state) := by
  by_cases h6 : t.typ = TAbort
  · left
    refine ⟨_, _, ?_, .abort h6⟩
    simp only [handle, dispatch, if_pos h6]
  by_cases h1 : t.typ = T1
  · have hd : dispatch E host t rnd c = handle1 E host t rnd { c with status := .inProgress } := by
      rw [dispatch]; simp only [if_neg h6, if_pos h1]
    rcases handle1_spec (host := host) hc h1 rnd { c with status := .inProgress } with ⟨e, h⟩ | ⟨h, hz⟩ |
      ⟨q, answer, G2a, G3a, hst, hck, hs, hg, h⟩
    · exact .inl ⟨_, _, by simp only [handle, hd.trans h], .rejected h6⟩
    · right
      refine ⟨by simp only [handle, hd.trans h], ?_, hz⟩
      simp only [handle1] at h
      split at h
      · rename_i hst; rw [hst]; exact h1
      · cases h
    · exact .inl ⟨_, _, by simp only [handle, hd.trans h]; rfl, .one h1 hst hck hs hg⟩
  have n2 : t.typ ≠ 2 := h1
  by_cases h2 : t.typ = T2
  · have hd : dispatch E host t rnd c = handle2 E t rnd { c with status := .inProgress } := by
      rw [dispatch]; simp only [if_neg h6, if_neg h1, if_pos h2]
    rcases handle2_spec hc n2 rnd { c with status := .inProgress } with ⟨e, h⟩ | ⟨h, hz⟩ |
      ⟨x, a2, a3, G2b, G3b, Pb, Qb, hst, hck, h⟩
    · exact .inl ⟨_, _, by simp only [handle, hd.trans h], .rejected h6⟩
    · right
      refine ⟨by simp only [handle, hd.trans h], ?_, hz⟩
      simp only [handle2] at h
      split at h
      · rename_i hst; rw [hst]; exact h2
      · cases h
    · exact .inl ⟨_, _, by simp only [handle, hd.trans h]; rfl, .two h2 hst hck⟩
  by_cases h3 : t.typ = T3
  · have hd : dispatch E host t rnd c = handle3 E t rnd { c with status := .inProgress } := by
      rw [dispatch]; simp only [if_neg h6, if_neg h1, if_neg h2, if_pos h3]
    rcases handle3_spec hc n2 rnd { c with status := .inProgress } with ⟨e, h⟩ | ⟨h, hz⟩ |
      ⟨G3a, G2, G3, b3, Pb, Qb, Pa, Qa, Ra, hst, hck, h⟩
    · exact .inl ⟨_, _, by simp only [handle, hd.trans h], .rejected h6⟩
    · right
      refine ⟨by simp only [handle, hd.trans h], ?_, hz⟩
      simp only [handle3] at h
      split at h
      · rename_i hst; rw [hst]; exact h3
      · cases h
    · exact .inl ⟨_, _, by simp only [handle, hd.trans h], .three h3 hst hck⟩
  · have h4 : t.typ = T4 := by
      simp only [isSmpTlv, Bool.or_eq_true, beq_iff_eq] at ht
      tauto
    have hd : dispatch E host t rnd c = handle4 E t { c with status := .inProgress } := by
      rw [dispatch]; simp only [if_neg h6, if_neg h1, if_neg h2, if_neg h3, if_pos h4]
    rcases handle4_spec hc n2 { c with status := .inProgress } with ⟨e, h⟩ | ⟨h, hz⟩ |
      ⟨G3b, dP, dQ, a3, Rb, hst, hck, hcmp, h⟩
    · exact .inl ⟨_, _, by simp only [handle, hd.trans h], .rejected h6⟩
    · right
      refine ⟨by simp only [handle, hd.trans h], ?_, hz⟩
      simp only [handle4] at h
      split at h
      · rename_i hst; rw [hst]; exact h4
      · cases h
    · exact .inl ⟨_, _, by simp only [handle, hd.trans h], .four h4 hst hck hcmp⟩

theorem handle_smp {r : Option TLV} {c' : SMP4Context} (h : handle E host t rnd c = (.ok r, c')) : isSmpTlv t = true := by
  by_contra hn
  simp only [isSmpTlv, Bool.or_eq_true, beq_iff_eq, not_or] at hn
  have hd : dispatch E host t rnd c = .panic := by
    simp only [dispatch, if_neg (show ¬ t.typ = TAbort by tauto), if_neg (show ¬ t.typ = T1 by tauto),
      if_neg (show ¬ t.typ = T2 by tauto), if_neg (show ¬ t.typ = T3 by tauto), if_neg (show ¬ t.typ = T4 by tauto)]
  simp [handle, hd] at h

theorem handle_inv (hc : GoodCurve E.curve) {r : Option TLV} {c' : SMP4Context}
    (h : handle E host t rnd c = (.ok r, c')) : Step E host t rnd c r c' := by
  rcases handle_step (host := host) (rnd := rnd) (c := c) hc (handle_smp h) with ⟨r', c'', h', hs⟩ | ⟨h', _⟩
  · rw [h] at h'; cases h'; exact hs
  · rw [h] at h'; cases h'

/-! ## Starting -/

theorem start_ok {secret q : Bytes} {m : TLV} {c' : SMP4Context} (h : start E secret q rnd c = (.ok m, c')) :
    c.status ≠ .inProgress ∧ m = ⟨T1, message1 E q (random E rnd 0) (random E rnd 1) (random E rnd 2) (random E rnd 3)⟩ ∧
    c' = ⟨.expect2 (computeSecret E c.us c.them c.ssid secret) (random E rnd 0) (random E rnd 1), .inProgress, c.us, c.them, c.ssid⟩ := by
  unfold start at h
  split at h
  · cases h
  · rename_i hn
    simp only at h
    split at h
    · obtain ⟨h1, h2⟩ := Prod.mk.inj h
      exact ⟨hn, (Res.ok.inj h1).symm, h2.symm⟩
    · cases h
    · cases h

theorem start_of (hc : SmpCurve E.curve) {secret q : Bytes} (hn : c.status ≠ .inProgress)
    (h0 : random E rnd 0 % E.curve.q ≠ 0) (h1 : random E rnd 1 % E.curve.q ≠ 0) :
    start E secret q rnd c = (.ok ⟨T1, message1 E q (random E rnd 0) (random E rnd 1) (random E rnd 2) (random E rnd 3)⟩,
      ⟨.expect2 (computeSecret E c.us c.them c.ssid secret) (random E rnd 0) (random E rnd 1), .inProgress, c.us, c.them, c.ssid⟩) := by
  have g := fun n hn => goodKey_mul (n := n) hc (goodKey_G hc) hn
  have v0 := (verify_ok (g _ h0).on).mpr (g _ h0)
  have v1 := (verify_ok (g _ h1).on).mpr (g _ h1)
  simp only [start, if_neg hn, v0, v1, expect, Res.bind_ok]

end SMP4

end Otrr
