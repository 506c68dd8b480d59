import Verif.Lemmas.SmpIds
import Verif.Spec.SmpBinding
import Verif.Lemmas.SessionReport
import Verif.Lemmas.NoErr
import Verif.Lemmas.Data3
import Verif.Spec.Data4
import Verif.Spec.Smp4
/-!
The life of the parts of an instance, through the calls of a session: as long as no new session starts, the data part and
the SMP context go on from where they were.
-/

namespace Otrr
open Otrr.Spec

/-! ## Decoded messages -/

theorem parse_readEncoded {E : Env} {s : Bytes} {m : EncodedMessage} (h : parse E s = .ok (.encoded m)) :
    ∃ d d', readEncoded E d = .ok (m, d') := by
  unfold parse at h
  split at h
  · unfold parseEncoded at h
    split at h
    · cases h
    · rename_i d _
      simp only [runDec, Res.bind_eq_ok, Res.pure_def, Res.ok.injEq, MessageType.encoded.injEq] at h
      obtain ⟨a, h1, rfl⟩ := h
      cases hr : readEncoded E d with
      | ok p => rw [hr] at h1; obtain ⟨a', d'⟩ := p; simp at h1; subst h1; exact ⟨d, d', hr⟩
      | err e => rw [hr] at h1; cases h1
      | panic => rw [hr] at h1; cases h1
  · unfold parsePlain at h
    split at h
    · cases h
    · split at h <;> try cases h
      split at h <;> cases h

theorem readContent_data {E : Env} {v : Version} {t : UInt8} {d d' : Bytes} {m : DataMessage}
    (h : readContent E v t d = .ok (.data m, d')) : Decoded m := by
  have key : ∀ d, readDataMessage d = .ok (m, d') → Decoded m := by
    intro d h
    simp only [readDataMessage, Dec.bind_eq_ok, Dec.pure_run, Res.ok.injEq, Prod.mk.injEq] at h
    obtain ⟨_, _, _, sk, _, h2, rk, _, h3, _, _, _, ctr, _, h5, _, _, _, _, _, _, _, _, _, rfl, _⟩ := h
    exact ⟨readKeyid_ne h2, readKeyid_ne h3, readCtr_len h5⟩
  unfold readContent at h
  split at h
  · repeat' split at h
    all_goals simp only [Dec.bind_eq_ok, Dec.pure_run, Res.ok.injEq, Prod.mk.injEq, Dec.fail_run, reduceCtorEq] at h
    all_goals obtain ⟨x, _, h1, h2, h3⟩ := h
    all_goals cases h2
    subst h3
    exact key d h1
  · repeat' split at h
    all_goals simp only [Dec.bind_eq_ok, Dec.pure_run, Res.ok.injEq, Prod.mk.injEq, Dec.fail_run, reduceCtorEq] at h
    all_goals obtain ⟨x, _, h1, h2, h3⟩ := h
    all_goals cases h2
  · cases h

/-- What the decoder guarantees of an OTRv3 data message. -/
theorem parse_decoded {E : Env} {s : Bytes} {m : EncodedMessage} (h : parse E s = .ok (.encoded m)) {d : DataMessage}
    (hm : m.message = .data d) : Decoded d := by
  obtain ⟨b, b', hr⟩ := parse_readEncoded h
  unfold readEncoded at hr
  simp only [Dec.bind_eq_ok, Dec.pure_run, Res.ok.injEq, Prod.mk.injEq] at hr
  obtain ⟨v, s1, _, t, s2, _, sn, s3, h3, rc, s4, h4, b, s5, h5, rfl, _⟩ := hr
  simp only at hm
  subst hm
  exact readContent_data h5

/-! ## Lives go on -/

theorem _root_.Otrr.Spec.Life3.append {E : Env} {a b c : Enc3} {l l' : List Ev3} (h : Life3 E a l b) (h' : Life3 E b l' c) : Life3 E a (l ++ l') c := by
  induction h' with
  | start => rw [List.append_nil]; exact h
  | send _ h2 ih => rw [← List.append_assoc]; exact .send ih h2
  | recv _ h2 h3 h4 ih => rw [← List.append_assoc]; exact .recv ih h2 h3 h4

theorem _root_.Otrr.Spec.Life4.append {E : Env} {a b c : Enc4} {l l' : List Ev4} (h : Life4 E a l b) (h' : Life4 E b l' c) : Life4 E a (l ++ l') c := by
  induction h' with
  | start => rw [List.append_nil]; exact h
  | send _ h2 ih => rw [← List.append_assoc]; exact .send ih h2
  | bye _ h2 ih => rw [← List.append_assoc]; exact .bye ih h2
  | recv _ h2 h3 ih => rw [← List.append_assoc]; exact .recv ih h2 h3

/-- The SMP context goes on. -/
def SmpOn (E : Env) (a b : SMPContext) : Prop := SMP.Same a b ∧ ∃ l, ∀ h, SmpLife E h a → SmpLife E (h ++ l) b
def SmpOn4 (E : Env) (a b : SMP4Context) : Prop := SMP4.Same a b ∧ ∃ l, ∀ h, SmpLife4 E h a → SmpLife4 E (h ++ l) b

theorem SmpOn.refl {E : Env} (a : SMPContext) : SmpOn E a a := ⟨⟨rfl, rfl⟩, [], fun h hl => by rw [List.append_nil]; exact hl⟩
theorem SmpOn4.refl {E : Env} (a : SMP4Context) : SmpOn4 E a a := ⟨⟨rfl, rfl, rfl⟩, [], fun h hl => by rw [List.append_nil]; exact hl⟩

theorem SmpOn.trans {E : Env} {a b c : SMPContext} (h : SmpOn E a b) (h' : SmpOn E b c) : SmpOn E a c := by
  obtain ⟨⟨e1, e2⟩, l, h⟩ := h
  obtain ⟨⟨e1', e2'⟩, l', h'⟩ := h'
  exact ⟨⟨e1'.trans e1, e2'.trans e2⟩, l ++ l', fun x hx => by rw [← List.append_assoc]; exact h' _ (h _ hx)⟩

theorem SmpOn4.trans {E : Env} {a b c : SMP4Context} (h : SmpOn4 E a b) (h' : SmpOn4 E b c) : SmpOn4 E a c := by
  obtain ⟨⟨e1, e2, e3⟩, l, h⟩ := h
  obtain ⟨⟨e1', e2', e3'⟩, l', h'⟩ := h'
  exact ⟨⟨e1'.trans e1, e2'.trans e2, e3'.trans e3⟩, l ++ l', fun x hx => by rw [← List.append_assoc]; exact h' _ (h _ hx)⟩

/-- If there is an encrypted session in the end, it is the one of the beginning, gone on. -/
def GoesOn (E : Env) (a b : PState) : Prop :=
  (∀ x' smp', b = .encrypted3 x' smp' → ∃ x smp l, a = .encrypted3 x smp ∧ Life3 E x l x' ∧ SmpOn E smp smp') ∧
  (∀ x' smp', b = .encrypted4 x' smp' → ∃ x smp l, a = .encrypted4 x smp ∧ Life4 E x l x' ∧ SmpOn4 E smp smp')

theorem GoesOn.refl {E : Env} (a : PState) : GoesOn E a a :=
  ⟨fun x smp h => ⟨x, smp, [], h, .start, .refl _⟩, fun x smp h => ⟨x, smp, [], h, .start, .refl _⟩⟩

theorem GoesOn.trans {E : Env} {a b c : PState} (h : GoesOn E a b) (h' : GoesOn E b c) : GoesOn E a c := by
  constructor
  · intro x'' smp'' hc
    obtain ⟨x', smp', l', hb, h1, h2⟩ := h'.1 x'' smp'' hc
    obtain ⟨x, smp, l, ha, h3, h4⟩ := h.1 x' smp' hb
    exact ⟨x, smp, l ++ l', ha, h3.append h1, h4.trans h2⟩
  · intro x'' smp'' hc
    obtain ⟨x', smp', l', hb, h1, h2⟩ := h'.2 x'' smp'' hc
    obtain ⟨x, smp, l, ha, h3, h4⟩ := h.2 x' smp' hb
    exact ⟨x, smp, l ++ l', ha, h3.append h1, h4.trans h2⟩

theorem GoesOn.ended {E : Env} {a b : PState} (h : b.status ≠ .encrypted) : GoesOn E a b :=
  ⟨fun x smp hb => absurd (by rw [hb]; rfl) h, fun x smp hb => absurd (by rw [hb]; rfl) h⟩

theorem GoesOn.life3 {E : Env} {x x' : Enc3} {smp smp' : SMPContext} {l : List Ev3} (h : Life3 E x l x') (h' : SmpOn E smp smp') :
    GoesOn E (.encrypted3 x smp) (.encrypted3 x' smp') :=
  ⟨fun y t hb => by cases hb; exact ⟨x, smp, l, rfl, h, h'⟩, fun y t hb => by cases hb⟩

theorem GoesOn.life4 {E : Env} {x x' : Enc4} {smp smp' : SMP4Context} {l : List Ev4} (h : Life4 E x l x') (h' : SmpOn4 E smp smp') :
    GoesOn E (.encrypted4 x smp) (.encrypted4 x' smp') :=
  ⟨fun _ _ hb => (by cases hb), fun y t hb => by cases hb; exact ⟨x, smp, l, rfl, h, h'⟩⟩

/-- A session right after a key exchange. -/
def Begins (E : Env) (b : PState) : Prop :=
  (∀ x smp, b = .encrypted3 x smp → Fresh3 E x ∧ Tied3 E smp ∧ ∃ l, SmpLife E l smp) ∧
  (∀ x smp, b = .encrypted4 x smp → Fresh4 E x ∧ Tied4 E smp ∧ ∃ l, SmpLife4 E l smp)

/-! ## Steps of the state -/

namespace PState

theorem goes_prepare {E : Env} {fl : UInt8} {content : Bytes} {rnd : Rand} {now : Nat} {s : PState}
    (h : (prepare E fl content rnd now s).1 ≠ .panic) : GoesOn E s (prepare E fl content rnd now s).2 := by
  cases s with
  | plaintext => exact .refl _
  | finished => exact .refl _
  | encrypted3 x smp =>
    have hn := StM.NoErr.enc3 E fl content x
    cases hx : Enc3.encrypt E fl content x with
    | mk r x' =>
      rw [hx] at hn
      have hp : prepare E fl content rnd now (.encrypted3 x smp) = (r.bind fun m => .ok (.data m), .encrypted3 x' smp) := by
        simp only [prepare, with3, StM.bind_run, StM.pure_run, hx]
        cases r <;> rfl
      rw [hp] at h ⊢
      cases r with
      | ok m => exact .life3 (.send .start hx) (.refl _)
      | err e => exact absurd rfl (hn e)
      | panic => exact absurd rfl h
  | encrypted4 x smp =>
    have hn := StM.NoErr.enc4 E fl content rnd now x
    cases hx : Enc4.encrypt E fl content rnd now x with
    | mk r x' =>
      rw [hx] at hn
      have hp : prepare E fl content rnd now (.encrypted4 x smp) = (r.bind fun m => .ok (.data4 m), .encrypted4 x' smp) := by
        simp only [prepare, with4, StM.bind_run, StM.pure_run, hx]
        cases r <;> rfl
      rw [hp] at h ⊢
      cases r with
      | ok m => exact .life4 (.send .start hx) (.refl _)
      | err e => exact absurd rfl (hn e)
      | panic => exact absurd rfl h

theorem goes_handle3 {E : Env} {m : DataMessage} (hm : Decoded m) {ad fr : Bytes} {s : PState}
    (h : (handle3 E m ad fr s).1 ≠ .panic) : GoesOn E s (handle3 E m ad fr s).2 := by
  cases s with
  | plaintext => exact .refl _
  | finished => exact .refl _
  | encrypted4 x smp => exact .refl _
  | encrypted3 x smp =>
    rw [handle3] at h ⊢
    cases hx : Enc3.handle E m ad fr x with
    | mk r x' =>
      rw [hx] at h
      cases r with
      | panic => exact absurd rfl h
      | err e => exact .life3 (.recv .start hm hx (by nofun)) (.refl _)
      | ok p =>
        obtain ⟨msg, last⟩ := p
        cases last with
        | true => exact .ended (by nofun)
        | false => exact .life3 (.recv .start hm hx (by nofun)) (.refl _)

theorem goes_handle4 {E : Env} {m : DataMessage4} {ad : Bytes} {now : Nat} {s : PState}
    (h : (handle4 E m ad now s).1 ≠ .panic) : GoesOn E s (handle4 E m ad now s).2 := by
  cases s with
  | plaintext => exact .refl _
  | finished => exact .refl _
  | encrypted3 x smp => exact .refl _
  | encrypted4 x smp =>
    rw [handle4] at h ⊢
    cases hx : Enc4.handle E m ad now x with
    | mk r x' =>
      rw [hx] at h
      cases r with
      | panic => exact absurd rfl h
      | err e => exact .life4 (.recv .start hx (by nofun)) (.refl _)
      | ok p =>
        obtain ⟨msg, last⟩ := p
        cases last with
        | true => exact .ended (by nofun)
        | false => exact .life4 (.recv .start hx (by nofun)) (.refl _)

theorem goes_finish {E : Env} {rnd : Rand} {now : Nat} {s : PState} (h : (finish E rnd now s).1 ≠ .panic) :
    GoesOn E s (finish E rnd now s).2 := by
  cases s with
  | plaintext => exact .refl _
  | finished => exact .ended (by nofun)
  | encrypted3 x smp =>
    have hn := StM.NoErr.enc3 E IGNORE_UNREADABLE disconnectPlain x
    rw [finish] at h ⊢
    cases hx : Enc3.encrypt E IGNORE_UNREADABLE disconnectPlain x with
    | mk r x' =>
      rw [hx] at hn h
      cases r with
      | ok m => exact .ended (by nofun)
      | err e => exact absurd rfl (hn e)
      | panic => exact absurd rfl h
  | encrypted4 x smp =>
    have hn := StM.NoErr.disconnect E rnd now x
    rw [finish] at h ⊢
    cases hx : Enc4.disconnect E rnd now x with
    | mk r x' =>
      rw [hx] at hn h
      cases r with
      | ok m => exact .ended (by nofun)
      | err e => exact absurd rfl (hn e)
      | panic => exact absurd rfl h

theorem goes_expire {E : Env} {t : Nat} {rnd : Rand} {now : Nat} {s : PState} (h : (expire E t rnd now s).1 ≠ .panic) :
    GoesOn E s (expire E t rnd now s).2 := by
  cases s with
  | plaintext => exact .refl _
  | finished => exact .refl _
  | encrypted3 x smp => exact .refl _
  | encrypted4 x smp =>
    have hn := StM.NoErr.disconnect E rnd now x
    rw [expire] at h ⊢
    split
    · rename_i ho
      rw [if_pos ho] at h
      cases hx : Enc4.disconnect E rnd now x with
      | mk r x' =>
        rw [hx] at hn h
        cases r with
        | ok m => exact .ended (by nofun)
        | err e => exact absurd rfl (hn e)
        | panic => exact absurd rfl h
    · exact .refl _

theorem goes_onSmp {E : Env} {f : StM SMPContext α} {e : OTRError} (hf : ∀ c, (f c).1 ≠ .panic → SmpOn E c (f c).2) {s : PState}
    (h : (onSmp f e s).1 ≠ .panic) : GoesOn E s (onSmp f e s).2 := by
  cases s with
  | encrypted3 x smp => exact .life3 .start (hf smp h)
  | _ => exact .refl _

theorem goes_onSmp4 {E : Env} {f : StM SMP4Context α} {e : OTRError} (hf : ∀ c, (f c).1 ≠ .panic → SmpOn4 E c (f c).2) {s : PState}
    (h : (onSmp4 f e s).1 ≠ .panic) : GoesOn E s (onSmp4 f e s).2 := by
  cases s with
  | encrypted4 x smp => exact .life4 .start (hf smp h)
  | _ => exact .refl _

end PState

theorem SMP.handle_ne_err {E : Env} {host : SMPHost} {t : TLV} {rnd : Rand} {c : SMPContext} (e : OTRError) :
    (SMP.handle E host t rnd c).1 ≠ .err e := by
  unfold SMP.handle
  dsimp only
  split <;> nofun

theorem SMP4.handle_ne_err {E : Env} {host : SMPHost} {t : TLV} {rnd : Rand} {c : SMP4Context} (e : OTRError) :
    (SMP4.handle E host t rnd c).1 ≠ .err e := by
  unfold SMP4.handle
  split <;> nofun

theorem SMP.goes_handle {E : Env} {host : SMPHost} {t : TLV} {rnd : Rand} (c : SMPContext) (h : (SMP.handle E host t rnd c).1 ≠ .panic) :
    SmpOn E c (SMP.handle E host t rnd c).2 := by
  cases hx : SMP.handle E host t rnd c with
  | mk r c' =>
    cases r with
    | ok r => exact ⟨by have := SMP.handle_same E host t rnd c; rwa [hx] at this, [.received t r c'.status], fun l hl => .received hl hx⟩
    | err e => exact absurd (by rw [hx]) (SMP.handle_ne_err (E := E) (host := host) (t := t) (rnd := rnd) (c := c) e)
    | panic => rw [hx] at h; exact absurd rfl h

theorem SMP4.goes_handle {E : Env} {host : SMPHost} {t : TLV} {rnd : Rand} (c : SMP4Context) (h : (SMP4.handle E host t rnd c).1 ≠ .panic) :
    SmpOn4 E c (SMP4.handle E host t rnd c).2 := by
  cases hx : SMP4.handle E host t rnd c with
  | mk r c' =>
    cases r with
    | ok r => exact ⟨by have := SMP4.handle_same E host t rnd c; rwa [hx] at this, [.received t r c'.status], fun l hl => .received hl hx⟩
    | err e => exact absurd (by rw [hx]) (SMP4.handle_ne_err (E := E) (host := host) (t := t) (rnd := rnd) (c := c) e)
    | panic => rw [hx] at h; exact absurd rfl h

theorem SMP.start_err {E : Env} {host : SMPHost} {sec q : Bytes} {rnd : Rand} {c c' : SMPContext} {e : OTRError}
    (h : SMP.start E host sec q rnd c = (.err e, c')) : c' = c := by
  unfold SMP.start at h
  split at h
  · split at h <;> simp at h
  · simp only [Prod.mk.injEq] at h; exact h.2.symm

theorem SMP4.start_err {E : Env} {sec q : Bytes} {rnd : Rand} {c c' : SMP4Context} {e : OTRError}
    (h : SMP4.start E sec q rnd c = (.err e, c')) : c' = c := by
  unfold SMP4.start at h
  split at h
  · simp only [Prod.mk.injEq] at h; exact h.2.symm
  · dsimp only at h
    split at h
    · simp at h
    · rename_i e' he'
      exact absurd he' (Res.NoErr.bind (Res.NoErr.expect _) (fun _ => Res.NoErr.expect _) e')
    · simp at h

theorem SMP.goes_start {E : Env} {host : SMPHost} {sec q : Bytes} {rnd : Rand} (c : SMPContext)
    (h : (SMP.start E host sec q rnd c).1 ≠ .panic) : SmpOn E c (SMP.start E host sec q rnd c).2 := by
  cases hx : SMP.start E host sec q rnd c with
  | mk r c' =>
    cases r with
    | ok t => exact ⟨by have := SMP.start_same E host sec q rnd c; rwa [hx] at this, [.started t], fun l hl => .started hl hx⟩
    | err e => rw [SMP.start_err hx]; exact .refl _
    | panic => rw [hx] at h; exact absurd rfl h

theorem SMP4.goes_start {E : Env} {sec q : Bytes} {rnd : Rand} (c : SMP4Context)
    (h : (SMP4.start E sec q rnd c).1 ≠ .panic) : SmpOn4 E c (SMP4.start E sec q rnd c).2 := by
  cases hx : SMP4.start E sec q rnd c with
  | mk r c' =>
    cases r with
    | ok t => exact ⟨by have := SMP4.start_same E sec q rnd c; rwa [hx] at this, [.started t], fun l hl => .started hl hx⟩
    | err e => rw [SMP4.start_err hx]; exact .refl _
    | panic => rw [hx] at h; exact absurd rfl h

theorem SMP.goes_abort {E : Env} (c : SMPContext) : SmpOn E c (SMP.abort c).2 := ⟨⟨rfl, rfl⟩, [.aborted], fun _ hl => .aborted (t := SMP.abortTlv) hl rfl⟩
theorem SMP4.goes_abort {E : Env} (c : SMP4Context) : SmpOn4 E c (SMP4.abort c).2 := ⟨⟨rfl, rfl, rfl⟩, [.aborted], fun _ hl => .aborted (t := SMP4.abortTlv) hl rfl⟩

/-! ## Calls that do not panic -/

/-- The relation holds between the states before and after the call, if it does not panic. -/
def Lives (R : σ → σ → Prop) (f : StM (World σ) α) : Prop := ∀ w, (f w).1 ≠ .panic → R w.st (f w).2.st

namespace Lives
variable {R : σ → σ → Prop}

theorem of {f : StM (World σ) α} (h : Keeps R f) : Lives R f := fun w _ => h w

theorem bind (hR : Pre R) {x : StM (World σ) α} {f : α → StM (World σ) β} (hx : Lives R x) (hf : ∀ a, Lives R (f a)) :
    Lives R (x >>= f) := by
  intro w h
  have h1 := hx w
  rw [StM.bind_run] at h ⊢
  cases hr : x w with
  | mk r w' =>
    rw [hr] at h1 h
    cases r with
    | ok a => exact hR.trans (h1 nofun) (hf a w' h)
    | err e => exact h1 nofun
    | panic => exact absurd rfl h

theorem pure (hR : Pre R) (a : α) : Lives R (Pure.pure a : StM (World σ) α) := .of (.pure hR a)
theorem lift (hR : Pre R) (r : Res α) : Lives R (StM.lift r) := .of (.lift hR r)
theorem gets (hR : Pre R) (f : World σ → α) : Lives R (StM.gets f) := .of (.gets hR f)
theorem query (hR : Pre R) (f : World σ → Res α) : Lives R (StM.query f) := .of (.query hR f)
theorem emit (hR : Pre R) (ms : List Bytes) : Lives R (Instance.emit ms) := .of (.emit hR ms)

theorem ite {p : Prop} [Decidable p] {x y : StM (World σ) α} (hx : Lives R x) (hy : Lives R y) : Lives R (if p then x else y) := by
  split <;> assumption

theorem attempt {x : StM (World σ) α} (hx : Lives R x) : Lives R (Instance.attempt x) := by
  intro w h
  have h1 := hx w
  unfold Instance.attempt at h ⊢
  cases hr : x w with
  | mk r w' =>
    rw [hr] at h1 h
    cases r with
    | ok a => exact h1 nofun
    | err e => exact h1 nofun
    | panic => exact absurd rfl h

end Lives

namespace Instance
variable {E : Env} {A : Account} {c : Call}

/-- The session with an instance goes on. -/
def On (E : Env) (i i' : Instance) : Prop := GoesOn E i.state i'.state ∧ i'.receiver = i.receiver

theorem on_pre : Pre (On E) := ⟨fun _ => ⟨.refl _, rfl⟩, fun h h' => ⟨h.1.trans h'.1, h'.2.trans h.2⟩⟩

theorem SameState.on {i i' : Instance} (h : SameState i i') : On E i i' := ⟨by rw [h.1]; exact .refl _, h.2⟩

theorem lives_same {f : InstM α} (h : Keeps SameState f) : Lives (On E) f := .of fun w => (h w).on

theorem lives_onState {f : StM PState α} (hf : ∀ s, (f s).1 ≠ .panic → GoesOn E s (f s).2) : Lives (On E) (onState f) :=
  fun w h => ⟨hf w.st.state h, rfl⟩

theorem lives_inject {rnd : Rand} {v : Version} {k : UInt32} {m : EncodedMessageType} : Lives (On E) (inject A c rnd v k m) :=
  .of (keeps_inject on_pre)

theorem lives_sendTlv {rnd : Rand} {k : UInt32} {t : TLV} : Lives (On E) (sendTlv E A c rnd k t) := by
  have hR := on_pre (E := E)
  exact .bind hR (.lift hR _) fun _ => .bind hR (lives_onState fun _ => PState.goes_prepare) fun _ =>
    .bind hR (.gets hR _) fun _ => lives_inject

theorem lives_send (t : Bool) (content : Bytes) : Lives (On E) (send E A c t content) := by
  have hR := on_pre (E := E)
  refine .bind hR (lives_onState fun _ => PState.goes_prepare) fun m => ?_
  split
  · refine .bind hR (.gets hR _) fun _ => .bind hR (.lift hR _) fun _ => .ite ?_ ?_
    · exact .bind hR (.lift hR _) fun _ => .pure hR _
    · exact .bind hR (.lift hR _) fun _ => .pure hR _
  · exact .bind hR (.gets hR _) fun _ => .bind hR (.gets hR _) fun _ => .bind hR (.lift hR _) fun _ =>
      .bind hR (.lift hR _) fun _ => .pure hR _

theorem lives_reset : Lives (On E) (reset E A c) := by
  have hR := on_pre (E := E)
  refine .bind hR (.gets hR _) fun _ => .bind hR (.gets hR _) fun _ => .bind hR (.gets hR _) fun _ =>
    .bind hR (lives_onState fun _ => PState.goes_finish) fun m => .bind hR (.gets hR _) fun _ => .ite ?_ ?_
  · exact .bind hR (.lift hR _) fun _ => .pure hR _
  · cases m with
    | some m => exact .bind hR lives_inject fun _ => .pure hR _
    | none => exact .pure hR _

theorem lives_expire (rnd : Rand) (t : Nat) : Lives (On E) (expire E A c rnd t) := by
  have hR := on_pre (E := E)
  refine .bind hR (.gets hR _) fun _ => .bind hR (lives_onState fun _ => PState.goes_expire) fun m => ?_
  cases m with
  | some m => exact .bind hR (.gets hR _) fun _ => lives_inject
  | none => exact .pure hR _

theorem lives_startSmp (secret q : Bytes) : Lives (On E) (startSmp E A c secret q) := by
  have hR := on_pre (E := E)
  have k : ∀ t : TLV, Lives (On E) (do sendTlv E A c (c.rnd.sub 1) (← StM.gets fun w => w.st.receiver) t) := fun t =>
    .bind hR (.gets hR _) fun _ => lives_sendTlv
  refine .bind hR (.gets hR _) fun v => ?_
  cases v with
  | v3 => exact .bind hR (lives_onState fun _ => PState.goes_onSmp SMP.goes_start) k
  | v4 => exact .bind hR (lives_onState fun _ => PState.goes_onSmp4 SMP4.goes_start) k
  | none => exact .bind hR (.lift hR _) k
  | unsupported v => exact .bind hR (.lift hR _) k

theorem lives_abortSmp : Lives (On E) (abortSmp E A c) := by
  have hR := on_pre (E := E)
  have k : ∀ t : TLV, Lives (On E) (do sendTlv E A c (c.rnd.sub 1) (← StM.gets fun w => w.st.receiver) t) := fun t =>
    .bind hR (.gets hR _) fun _ => lives_sendTlv
  refine .bind hR (.gets hR _) fun v => ?_
  cases v with
  | v3 => exact .bind hR (lives_onState fun _ => PState.goes_onSmp fun c _ => SMP.goes_abort c) k
  | v4 => exact .bind hR (lives_onState fun _ => PState.goes_onSmp4 fun c _ => SMP4.goes_abort c) k
  | none => exact .bind hR (.lift hR _) k
  | unsupported v => exact .bind hR (.lift hR _) k

theorem lives_smpHandle (rnd : Rand) (v : Version) (t : TLV) : Lives (On E) (onState (smpHandle E c rnd v t)) := by
  refine lives_onState fun s => ?_
  cases v with
  | v3 => exact PState.goes_onSmp SMP.goes_handle
  | _ => exact PState.goes_onSmp4 SMP4.goes_handle

theorem lives_smpEnd (v : Version) : Lives (On E) (smpEnd v) := by
  have hR := on_pre (E := E)
  refine .bind hR (.gets hR _) fun _ => .bind hR (.query hR _) fun st => ?_
  cases st
  · exact .lift hR _
  all_goals exact .pure hR _

theorem lives_handleSmp {v : Version} {k : UInt32} {ts : List TLV} : Lives (On E) (handleSmp E A c v k ts) := by
  have hR := on_pre (E := E)
  unfold handleSmp
  refine .ite (.lift hR _) ?_
  split
  · exact .lift hR _
  · refine .bind hR (lives_smpHandle _ v _) fun r => ?_
    cases r with
    | some r => exact .bind hR lives_sendTlv fun _ => lives_smpEnd v
    | none => exact lives_smpEnd v

theorem lives_handleDecrypted {v : Version} {k : UInt32} {fl : UInt8} {r : Res PMessage} :
    Lives (On E) (handleDecrypted E A c v k fl r) := by
  have hR := on_pre (E := E)
  refine .bind hR (.gets hR _) fun own => ?_
  split
  · exact .ite lives_handleSmp (.pure hR _)
  · exact .pure hR _
  · exact .bind hR (.lift hR _) fun _ => .bind hR (.emit hR _) fun _ => .ite (.pure hR _) (.lift hR _)
  · exact .lift hR _
  · exact .lift hR _

/-- What happens to the session with the sender of a message: it goes on, or a new one begins, and that is reported. -/
def Turn (E : Env) (m : EncodedMessage) (i : Instance) (r : Res UserMessage) (i' : Instance) : Prop :=
  (∀ d, m.message = .data d → Decoded d) → r ≠ .panic →
    On E i i' ∨ r = .ok (.sessionStarted i.receiver) ∧ Begins E i'.state

theorem Turn.lives {m : EncodedMessage} {f : InstM UserMessage} (h : Lives (On E) f) (w : World Instance) :
    Turn E m w.st (f w).1 (f w).2.st := fun _ hp => .inl (h w hp)

theorem begins_secure {k : UInt32} {mat : AKEMaterial} {w w' : World Instance} {u : Unit}
    (hm : ∃ secret, mat.ssid = (E.sha256 (0 :: secret)).take 8) (h : secure E A c k mat w = (.ok u, w')) : Begins E w'.st.state := by
  simp only [secure, onState] at h
  cases hs : w.st.state.secure3 E A.tag k mat (c.rnd.sub 1) with
  | err e => rw [hs] at h; simp at h
  | panic => rw [hs] at h; simp at h
  | ok s' =>
    rw [hs] at h
    simp only [Prod.mk.injEq] at h
    rw [← h.2]
    show Begins E s'
    unfold PState.secure3 at hs
    have : ∃ x, Enc3.new E A.tag k mat.ourDh mat.theirDh (c.rnd.sub 1) = .ok x ∧
        s' = .encrypted3 x (SMP.new mat.ssid (fingerprint3 E mat.theirDsa)) := by
      split at hs
      · cases hs
      · simp only [Res.bind_eq_ok, Res.pure_def, Res.ok.injEq] at hs
        obtain ⟨x, h1, h2⟩ := hs
        exact ⟨x, h1, h2.symm⟩
    obtain ⟨x, h1, rfl⟩ := this
    refine ⟨fun y smp hb => ?_, fun y smp hb => by cases hb⟩
    cases hb
    exact ⟨⟨_, _, _, _, _, h1⟩, ⟨hm, _, rfl⟩, _, .new _ _⟩

theorem begins_secure4 {our their : UInt32} {mat : MixedKeyMaterial} (h : ∀ a b, Fresh4 E ⟨a, b, mat.ratchet⟩)
    (hm : Tied4 E (SMP4.new mat.us mat.them mat.ssid)) : Begins E (PState.secure4 our their mat) := by
  refine ⟨fun y smp hb => (by cases hb), fun y smp hb => ?_⟩
  simp only [PState.secure4, PState.encrypted4.injEq] at hb
  obtain ⟨rfl, rfl⟩ := hb
  exact ⟨h _ _, hm, _, .new _ _ _⟩

theorem fresh_authR {host : DAKEHost} {m : AuthRMessage} {rnd : Rand} {now : Nat} {w w' : World Instance} {mat : MixedKeyMaterial}
    {r : EncodedMessageType} (h : onDake (DAKE.handleAuthR E host m rnd now) w = (.ok (mat, r), w')) (a b : UInt32) :
    Fresh4 E ⟨a, b, mat.ratchet⟩ := by
  simp only [onDake, Prod.mk.injEq] at h
  have h1 : DAKE.handleAuthR E host m rnd now w.st.dake = (.ok (mat, r), (DAKE.handleAuthR E host m rnd now w.st.dake).2) :=
    Prod.ext h.1 rfl
  rw [DAKE.handleAuthR, transact_ok] at h1
  cases hd : w.st.dake with
  | awaitingAuthR st =>
    rw [hd] at h1
    simp only [DAKE.answerAuthR, Res.bind_eq_ok, Res.pure_def, Res.ok.injEq, Prod.mk.injEq] at h1
    obtain ⟨_, ⟨_, _, _, _, _, _, _, _, _, _, first, h3, rt, h2, rfl⟩, ⟨rfl, _⟩, _⟩ := h1
    exact ⟨_, _, _, _, _, first, now, h3, .inr ⟨_, now, h2⟩⟩
  | _ => rw [hd] at h1; cases h1

theorem tied_authR {host : DAKEHost} {m : AuthRMessage} {rnd : Rand} {now : Nat} {w w' : World Instance} {mat : MixedKeyMaterial}
    {r : EncodedMessageType} (h : onDake (DAKE.handleAuthR E host m rnd now) w = (.ok (mat, r), w')) :
    Tied4 E (SMP4.new mat.us mat.them mat.ssid) := by
  simp only [onDake, Prod.mk.injEq] at h
  have h1 : DAKE.handleAuthR E host m rnd now w.st.dake = (.ok (mat, r), (DAKE.handleAuthR E host m rnd now w.st.dake).2) :=
    Prod.ext h.1 rfl
  rw [DAKE.handleAuthR, transact_ok] at h1
  cases hd : w.st.dake with
  | awaitingAuthR st =>
    rw [hd] at h1
    simp only [DAKE.answerAuthR, Res.bind_eq_ok, Res.pure_def, Res.ok.injEq, Prod.mk.injEq] at h1
    obtain ⟨_, ⟨_, _, _, _, _, _, _, _, _, _, first, h3, rt, h2, rfl⟩, ⟨rfl, _⟩, _⟩ := h1
    exact ⟨⟨_, rfl⟩, ⟨_, _, rfl⟩, _, _, rfl⟩
  | _ => rw [hd] at h1; cases h1

theorem tied_authI {host : DAKEHost} {m : AuthIMessage} {now : Nat} {w w' : World Instance} {mat : MixedKeyMaterial}
    (h : onDake (DAKE.handleAuthI E host m now) w = (.ok mat, w')) : Tied4 E (SMP4.new mat.us mat.them mat.ssid) := by
  simp only [onDake, Prod.mk.injEq] at h
  have h1 : DAKE.handleAuthI E host m now w.st.dake = (.ok mat, (DAKE.handleAuthI E host m now w.st.dake).2) :=
    Prod.ext h.1 rfl
  rw [DAKE.handleAuthI, transact_ok] at h1
  cases hd : w.st.dake with
  | awaitingAuthI st =>
    rw [hd] at h1
    simp only [DAKE.acceptAuthI, Res.bind_eq_ok, Res.pure_def, Res.ok.injEq, Prod.mk.injEq] at h1
    obtain ⟨_, ⟨_, _, _, _, _, _, first, h3, rfl⟩, rfl, _⟩ := h1
    exact ⟨⟨_, rfl⟩, ⟨_, _, rfl⟩, _, _, rfl⟩
  | _ => rw [hd] at h1; cases h1

theorem tied_reveal {host : Option DSAKeypair} {m : RevealSignatureMessage} {w w' : World Instance} {mat : AKEMaterial}
    {r : EncodedMessageType} (h : onAke (AKE.handleRevealSignature E host m) w = (.ok (mat, r), w')) :
    ∃ secret, mat.ssid = (E.sha256 (0 :: secret)).take 8 := by
  simp only [onAke, Prod.mk.injEq] at h
  have h1 : AKE.handleRevealSignature E host m w.st.ake = (.ok (mat, r), (AKE.handleRevealSignature E host m w.st.ake).2) :=
    Prod.ext h.1 rfl
  rw [AKE.handleRevealSignature, transact_ok] at h1
  cases hd : w.st.ake with
  | awaitingRevealSignature kp enc hashed =>
    rw [hd] at h1
    simp only [AKE.answerRevealSignature, Res.bind_eq_ok, Res.pure_def, Res.ok.injEq, Prod.mk.injEq] at h1
    obtain ⟨_, ⟨_, _, _, _, _, _, _, _, ⟨_, _, _⟩, _, _, _, _, _, rfl⟩, ⟨rfl, _⟩, _⟩ := h1
    exact ⟨_, rfl⟩
  | _ => rw [hd] at h1; cases h1

theorem tied_signature {m : SignatureMessage} {w w' : World Instance} {mat : AKEMaterial}
    (h : onAke (AKE.handleSignature E m) w = (.ok mat, w')) : ∃ secret, mat.ssid = (E.sha256 (0 :: secret)).take 8 := by
  simp only [onAke, Prod.mk.injEq] at h
  have h1 : AKE.handleSignature E m w.st.ake = (.ok mat, (AKE.handleSignature E m w.st.ake).2) :=
    Prod.ext h.1 rfl
  rw [AKE.handleSignature, transact_ok] at h1
  cases hd : w.st.ake with
  | awaitingSignature kp gy s prev =>
    rw [hd] at h1
    simp only [AKE.acceptSignature, Res.bind_eq_ok, Res.pure_def, Res.ok.injEq, Prod.mk.injEq] at h1
    obtain ⟨_, ⟨_, _, ⟨_, _, _⟩, _, _, _, rfl⟩, rfl, _⟩ := h1
    exact ⟨_, rfl⟩
  | _ => rw [hd] at h1; cases h1

theorem fresh_authI {host : DAKEHost} {m : AuthIMessage} {now : Nat} {w w' : World Instance} {mat : MixedKeyMaterial}
    (h : onDake (DAKE.handleAuthI E host m now) w = (.ok mat, w')) (a b : UInt32) :
    Fresh4 E ⟨a, b, mat.ratchet⟩ := by
  simp only [onDake, Prod.mk.injEq] at h
  have h1 : DAKE.handleAuthI E host m now w.st.dake = (.ok mat, (DAKE.handleAuthI E host m now w.st.dake).2) :=
    Prod.ext h.1 rfl
  rw [DAKE.handleAuthI, transact_ok] at h1
  cases hd : w.st.dake with
  | awaitingAuthI st =>
    rw [hd] at h1
    simp only [DAKE.acceptAuthI, Res.bind_eq_ok, Res.pure_def, Res.ok.injEq, Prod.mk.injEq] at h1
    obtain ⟨_, ⟨_, _, _, _, _, _, first, h3, rfl⟩, rfl, _⟩ := h1
    exact ⟨_, _, _, _, _, first, now, h3, .inl rfl⟩
  | _ => rw [hd] at h1; cases h1

theorem process_turn (m : EncodedMessage) (w : World Instance) : Turn E m w.st (process E A c m w).1 (process E A c m w).2.st := by
  have hR := on_pre (E := E)
  unfold process
  rw [StM.bind_run]
  simp only [StM.gets]
  obtain ⟨v, snd, rcv, msg⟩ := m
  have hv : ∀ r : Res UserMessage, Turn E ⟨v, snd, rcv, msg⟩ w.st (StM.lift r w).1 (StM.lift r w).2.st :=
    fun r => Turn.lives (.lift hR r) w
  cases v with
  | v3 =>
    cases msg with
    | dhCommit msg => exact Turn.lives (.bind hR (lives_same (same_onAke _)) fun _ => .bind hR lives_inject fun _ => .pure hR _) w
    | dhKey msg => exact Turn.lives (.bind hR (lives_same (same_onAke _)) fun _ => .bind hR lives_inject fun _ => .pure hR _) w
    | revealSignature msg =>
      intro _ hp
      simp only [StM.bind_run] at hp ⊢
      have hs := same_onAke (AKE.handleRevealSignature E c.keypair msg) w
      generalize hm : onAke (AKE.handleRevealSignature E c.keypair msg) w = x at hp hs ⊢
      obtain ⟨r, w1⟩ := x
      cases r with
      | panic => exact absurd rfl hp
      | err e => exact .inl hs.on
      | ok p =>
        obtain ⟨mat, r⟩ := p
        simp only at hp ⊢
        cases hx : secure E A c snd mat w1 with
        | mk r2 w2 =>
          rw [hx] at hp
          cases r2 with
          | panic => exact absurd rfl hp
          | err e =>
            rcases secure_inv hx with ⟨h1, -⟩ | ⟨h1, -⟩ <;> cases h1
          | ok u =>
            simp only at hp ⊢
            have hst := inject_spec A c (c.rnd.sub 3) .v3 snd r w2
            have hne := (StM.NoErr.inject A c (c.rnd.sub 3) .v3 snd r) w2
            generalize inject A c (c.rnd.sub 3) .v3 snd r w2 = y at hp hst hne ⊢
            obtain ⟨r3, w3⟩ := y
            cases r3 with
            | panic => exact absurd rfl hp
            | err e => exact absurd rfl (hne e)
            | ok u =>
              refine .inr ⟨rfl, ?_⟩
              have : w3.st = w2.st := hst
              simp only [StM.pure_run]
              rw [this]
              exact begins_secure (tied_reveal hm) hx
    | signature msg =>
      intro _ hp
      simp only [StM.bind_run] at hp ⊢
      have hs := same_onAke (AKE.handleSignature E msg) w
      generalize hm : onAke (AKE.handleSignature E msg) w = x at hp hs ⊢
      obtain ⟨r, w1⟩ := x
      cases r with
      | panic => exact absurd rfl hp
      | err e => exact .inl hs.on
      | ok mat =>
        simp only at hp ⊢
        cases hx : secure E A c snd mat w1 with
        | mk r2 w2 =>
          rw [hx] at hp
          cases r2 with
          | panic => exact absurd rfl hp
          | err e =>
            rcases secure_inv hx with ⟨h1, -⟩ | ⟨h1, -⟩ <;> cases h1
          | ok u => exact .inr ⟨rfl, begins_secure (tied_signature hm) hx⟩
    | data msg =>
      intro hd
      exact Turn.lives (m := ⟨.v3, snd, rcv, .data msg⟩) (.bind hR (.attempt (lives_onState fun _ => PState.goes_handle3 (hd msg rfl))) fun _ => lives_handleDecrypted) w hd
    | _ => exact hv _
  | v4 =>
    cases msg with
    | identity msg => exact Turn.lives (.bind hR (lives_same (same_onDake _)) fun _ => .bind hR lives_inject fun _ => .pure hR _) w
    | authR msg =>
      intro _ hp
      simp only [StM.bind_run] at hp ⊢
      have hs := same_onDake (DAKE.handleAuthR E (c.dake A) msg (c.rnd.sub 0) c.now) w
      cases hx : onDake (DAKE.handleAuthR E (c.dake A) msg (c.rnd.sub 0) c.now) w with
      | mk r w1 =>
      rw [hx] at hp hs
      cases r with
      | panic => exact absurd rfl hp
      | err e => exact .inl hs.on
      | ok p =>
        obtain ⟨mat, r⟩ := p
        simp only at hp ⊢
        have hst := inject_spec A c (c.rnd.sub 3) .v4 snd r w1
        have hne := (StM.NoErr.inject A c (c.rnd.sub 3) .v4 snd r) w1
        generalize inject A c (c.rnd.sub 3) .v4 snd r w1 = y at hp hst hne ⊢
        obtain ⟨r3, w3⟩ := y
        cases r3 with
        | panic => exact absurd rfl hp
        | err e => exact absurd rfl (hne e)
        | ok u =>
          exact .inr ⟨rfl, begins_secure4 (fresh_authR hx) (tied_authR hx)⟩
    | authI msg =>
      intro _ hp
      simp only [StM.bind_run] at hp ⊢
      have hs := same_onDake (DAKE.handleAuthI E (c.dake A) msg c.now) w
      cases hx : onDake (DAKE.handleAuthI E (c.dake A) msg c.now) w with
      | mk r w1 =>
      rw [hx] at hp hs
      cases r with
      | panic => exact absurd rfl hp
      | err e => exact .inl hs.on
      | ok mat =>
        exact .inr ⟨rfl, begins_secure4 (fresh_authI hx) (tied_authI hx)⟩
    | data4 msg =>
      exact Turn.lives (.bind hR (.lift hR _) fun _ => .bind hR (.attempt (lives_onState fun _ => PState.goes_handle4)) fun _ => lives_handleDecrypted) w
    | _ => exact hv _
  | none => cases msg <;> exact hv _
  | unsupported v => cases msg <;> exact hv _

theorem handle_turn {f : InstM Unit} (hf : Keeps SameState f) (m : EncodedMessage) (w : World Instance) :
    let x := (do f; Instance.handle E A c m : InstM UserMessage) w
    Turn E m w.st x.1 x.2.st := by
  intro x
  have hx : x = (do f; Instance.handle E A c m : InstM UserMessage) w := rfl
  have hs := hf w
  rw [StM.bind_run] at hx
  cases hr : f w with
  | mk r w1 =>
    rw [hr] at hx hs
    cases r with
    | err e => rw [hx]; exact fun _ _ => .inl hs.on
    | panic => rw [hx]; exact fun _ _ => .inl hs.on
    | ok u =>
      simp only [Instance.handle, StM.bind_run] at hx
      have hs2 := same_clearAssembler m.version w1
      cases hr2 : clearAssembler m.version w1 with
      | mk r2 w2 =>
        rw [hr2] at hx hs2
        have hq := same_pre.trans hs hs2
        cases r2 with
        | err e => rw [hx]; exact fun _ _ => .inl hq.on
        | panic => rw [hx]; exact fun _ _ => .inl hq.on
        | ok u2 =>
          simp only at hx
          rw [hx]
          have := process_turn (E := E) (A := A) (c := c) m w2
          unfold Turn On at this ⊢
          have h1 : w2.st.state = w.st.state := hq.1
          have h2 : w2.st.receiver = w.st.receiver := hq.2
          rw [h1, h2] at this
          exact this

end Instance

namespace Session
open Instance
variable {E : Env} {A : Account} {c : Call}

variable {T : EncodedMessage → Instance → Res UserMessage → Instance → Prop}

/-- As `Told`, for any relation `T` between the instances before and after, and the result. -/
def ToldBy (A : Account) (T : EncodedMessage → Instance → Res UserMessage → Instance → Prop) (s : Session) (P : EncodedMessage → Prop) (r : Res UserMessage) (s' : Session) : Prop :=
  (Idle s s' ∧ ∀ um, r = .ok um →
    um = .none ∨ (∃ t, um = .plaintext t) ∨ (∃ t, um = .warningUnencrypted t) ∨ ∃ t, um = .error t) ∨
  ∃ m, P m ∧ verifyHeader A m = .ok () ∧ allowed A m.version = true ∧ m.sender ≠ 0 ∧
    (∀ k, k ≠ m.sender → SameState (s.inst k) (s'.inst k)) ∧ T m (s.inst m.sender) r (s'.inst m.sender)

theorem Dull.toldBy {f : SessM UserMessage} (h : Dull f) (P : EncodedMessage → Prop) (w : World Session) :
    ToldBy A T w.st P (f w).1 (f w).2.st :=
  .inl ⟨h.1 w, fun um hr => h.2 w um (f w).2 (by rw [← hr])⟩

theorem toldBy_receiveEncoded
    (hT : ∀ h m w, T m w.st ((do adopt h; Instance.handle E A c m : InstM UserMessage) w).1 ((do adopt h; Instance.handle E A c m : InstM UserMessage) w).2.st)
    {w : World Session} (hi : Inv E w.st) {m : EncodedMessage} (hm : m.sender ≠ 0) :
    ToldBy A T w.st (· = m) (receiveEncoded E A c m w).1 (receiveEncoded E A c m w).2.st := by
  have hR := idle_pre
  unfold receiveEncoded
  simp only [StM.bind_run, StM.lift]
  cases hv : verifyHeader A m with
  | err e => exact .inl ⟨hR.refl _, nofun⟩
  | panic => exact .inl ⟨hR.refl _, nofun⟩
  | ok u =>
    simp only
    cases hal : allowed A m.version with
    | false => exact .inl ⟨hR.refl _, fun um h => .inl (by cases h; rfl)⟩
    | true =>
      simp only [Bool.not_true, Bool.false_eq_true, if_false]
      obtain ⟨h, hh, ha, hd⟩ := handOver_ok (sent := w.sent) hi m
      rw [StM.bind_run, hh]
      simp only
      have hsec := hT h m ⟨w.st.inst m.sender, w.sent⟩
      generalize hf : (do adopt h; Instance.handle E A c m : InstM UserMessage) = f at hsec ⊢
      refine .inr ⟨m, rfl, hv, hal, hm, fun j hj => ?_, ?_⟩
      · rw [inst_entry, if_neg (Ne.symm hj)]
        exact same_pre.refl _
      · rw [inst_entry, if_pos rfl, entry_fst]
        exact hsec

theorem toldBy_receiveWhole
    (hT : ∀ h m w, T m w.st ((do adopt h; Instance.handle E A c m : InstM UserMessage) w).1 ((do adopt h; Instance.handle E A c m : InstM UserMessage) w).2.st)
    {w : World Session} (hi : Inv E w.st) (payload : Bytes) :
    ToldBy A T w.st (fun m => parse E payload = .ok (.encoded m)) (receiveWhole E A c payload w).1
      (receiveWhole E A c payload w).2.st := by
  have hR := idle_pre
  unfold receiveWhole
  rw [StM.bind_run, StM.lift]
  cases hp : parse E payload with
  | err e => exact .inl ⟨hR.refl _, nofun⟩
  | panic => exact .inl ⟨hR.refl _, nofun⟩
  | ok t =>
    cases t with
    | error e => exact Dull.toldBy (.ite (.bind idle_query fun _ => .error _) (.error _)) _ w
    | plaintext content => exact (dull_reportPlain _).toldBy _ w
    | tagged vs content =>
      exact Dull.toldBy (.ite (.bind (idle_answerOffer vs) fun _ => dull_reportPlain _) (dull_reportPlain _)) _ w
    | query vs => exact Dull.toldBy (.bind (idle_answerOffer vs) fun _ => .none) _ w
    | encoded m =>
      simp only
      split
      · exact Dull.toldBy .none _ w
      · rename_i h0
        rcases toldBy_receiveEncoded hT hi h0 with h | ⟨m', rfl, h⟩
        · exact .inl h
        · exact .inr ⟨_, rfl, h⟩

theorem ToldBy.after (hS : ∀ m i i1 r i', SameState i i1 → T m i1 r i' → T m i r i')
    {s s1 s' : Session} {P Q : EncodedMessage → Prop} {r : Res UserMessage} (h : Idle s s1)
    (hpq : ∀ m, P m → Q m) (ht : ToldBy A T s1 P r s') : ToldBy A T s Q r s' := by
  rcases ht with ⟨h1, h2⟩ | ⟨m, h1, h2, h3, h4, h5, h6⟩
  · exact .inl ⟨idle_pre.trans h h1, h2⟩
  · refine .inr ⟨m, hpq m h1, h2, h3, h4, fun k hk => same_pre.trans (h.each k) (h5 k hk), ?_⟩
    exact hS _ _ _ _ _ (h.each m.sender) h6

theorem toldBy_receive
    (hT : ∀ h m w, T m w.st ((do adopt h; Instance.handle E A c m : InstM UserMessage) w).1 ((do adopt h; Instance.handle E A c m : InstM UserMessage) w).2.st)
    (hS : ∀ m i i1 r i', SameState i i1 → T m i1 r i' → T m i r i')
    {w : World Session} (hi : Inv E w.st) (payload : Bytes) :
    ToldBy A T w.st (Delivers E A w.st payload) (receive E A c payload w).1 (receive E A c payload w).2.st := by
  have hR := idle_pre
  unfold receive
  split
  · exact Dull.toldBy (.plaintext _) _ w
  · split
    · rename_i hf
      unfold receiveFragment
      rw [StM.bind_run, StM.lift]
      cases hp : parseFragment E.nd payload with
      | err e => exact .inl ⟨hR.refl _, nofun⟩
      | panic => exact .inl ⟨hR.refl _, nofun⟩
      | ok o =>
        cases o with
        | none => exact .inl ⟨hR.refl _, fun um h => .inl (by cases h; rfl)⟩
        | some f =>
          simp only [StM.bind_run, StM.lift]
          cases hg1 : Res.guard (verifyFragment f) .protocolViolation with
          | err e => exact .inl ⟨hR.refl _, nofun⟩
          | panic => exact .inl ⟨hR.refl _, nofun⟩
          | ok u =>
            simp only
            cases hg2 : Res.guard (f.receiver == INSTANCE_ZERO || f.receiver == A.tag) .messageForOtherInstance with
            | err e => exact .inl ⟨hR.refl _, nofun⟩
            | panic => exact .inl ⟨hR.refl _, nofun⟩
            | ok u =>
              simp only
              have hidle := idle_assemble f f.sender w
              have hcalm := calm_assemble (E := E) f f.sender w
              have hres : (entry f.sender (assemble f) w).1 = .ok ((w.st.inst f.sender).assembler.assemble f).1 := rfl
              cases he : entry f.sender (assemble f) w with
              | mk r w1 =>
                rw [he] at hcalm hres hidle
                simp only at hres
                subst hres
                simp only
                cases ha : (w.st.inst f.sender).assembler.assemble f with
                | mk ar a =>
                  cases ar with
                  | ok content =>
                    simp only
                    split
                    · exact .inl ⟨hidle, nofun⟩
                    · rename_i hnf
                      refine .after hS hidle (fun m hm => ?_) (toldBy_receiveWhole hT (hi.calm hcalm) content)
                      refine .inr ⟨hf, f, w.st.inst f.sender, content, a, hp, guard_true hg1, by simpa [INSTANCE_ZERO] using guard_true hg2, ?_, ha, by simpa using hnf, hm⟩
                      unfold inst
                      cases hl : lookup w.st.instances f.sender with
                      | none => exact .inr ⟨rfl, rfl⟩
                      | some i => exact .inl rfl
                  | err e =>
                    cases e
                    case invalidData => exact .inl ⟨hidle, nofun⟩
                    all_goals exact .inl ⟨hidle, fun um h => .inl (by cases h; rfl)⟩
                  | panic => exact .inl ⟨hidle, nofun⟩
    · rename_i hnf
      exact .after hS (hR.refl _) (fun m hm => .inl ⟨by simpa using hnf, hm⟩) (toldBy_receiveWhole hT hi payload)

theorem turned_receive {w : World Session} (hi : Inv E w.st) (payload : Bytes) :
    ToldBy A (Turn E) w.st (Delivers E A w.st payload) (receive E A c payload w).1 (receive E A c payload w).2.st :=
  toldBy_receive (fun h m w => handle_turn (same_adopt h) m w) (fun m i i1 r i' h ht => by
    unfold Turn On at ht ⊢
    rw [h.1, h.2] at ht
    exact ht) hi payload

theorem lives_entry {f : InstM α} (hf : Lives (On E) f) (k : UInt32) : Lives (Rel (On E)) (entry k f) := by
  intro w h
  refine ⟨entry_keys k f w, entry_nodup k f w, fun j => ?_⟩
  rw [inst_entry]
  split
  · rename_i hj; subst hj; exact hf ⟨w.st.inst k, w.sent⟩ h
  · exact on_pre.refl _

theorem lives_existing {f : InstM α} (hf : Lives (On E) f) (k : UInt32) : Lives (Rel (On E)) (existing k f) := by
  intro w h
  unfold existing at h ⊢
  split
  · exact (rel_pre on_pre).refl _
  · rename_i hl
    rw [hl] at h
    exact lives_entry hf k w h

theorem Idle.on {s s' : Session} (h : Idle s s') : Rel (On E) s s' := ⟨h.keys, h.nodup, fun k => (h.each k).on⟩

theorem lives_expireAll (t n : Nat) (ks : List UInt32) : Lives (Rel (On E)) (expireAll E A c t n ks) := by
  have hR := rel_pre (on_pre (E := E))
  induction ks generalizing n with
  | nil => exact .pure hR _
  | cons k ks ih => exact .bind hR (lives_existing (lives_expire _ t) k) fun _ => ih (n + 1)

/-- Calls other than `receive` start no sessions. -/
theorem lives_run {s : Session} {op : Op} (h : ∀ p, op ≠ .receive p) (hp : (op.run E A c s).result ≠ .panic) :
    Rel (On E) s (op.run E A c s).after := by
  have hR := rel_pre (on_pre (E := E))
  have key : ∀ {α : Type} {f : SessM α} {g : α → Answer}, Lives (Rel (On E)) f → (perform f g s).result ≠ .panic →
      Rel (On E) s (perform f g s).after := by
    intro α f g hf hp
    rw [perform_after]
    refine hf ⟨s, []⟩ fun h => hp ?_
    rw [perform_result, h]
    rfl
  cases op with
  | receive p => exact absurd rfl (h p)
  | expire t => exact key (.bind hR (.gets hR _) fun _ => lives_expireAll _ _ _) hp
  | send k content =>
    refine key (Lives.ite (.pure hR _) (.bind hR (.gets hR _) fun st => ?_)) hp
    cases st with
    | none => exact .lift hR _
    | some st =>
      refine .ite (.bind hR ?_ fun _ => .lift hR _) ?_
      · exact .of (.ite (.lift hR _) (.bind hR (.lift hR _) fun _ => .emit hR _))
      · refine .bind hR (.gets hR _) fun t => .bind hR (lives_existing (lives_send t content) k) fun x => ?_
        refine .bind hR (.of fun w => ?_) fun _ => .pure hR _
        exact ⟨fun _ h => h, id, fun _ => on_pre.refl _⟩
  | initiate v k => exact key (.of fun w => Idle.on (keeps_entry same_pre (same_initiate v) k w)) hp
  | close k => exact key (lives_existing lives_reset k) hp
  | query => exact key (.of (Keeps.ite (.lift hR _) (.bind hR (.lift hR _) fun _ => .emit hR _))) hp
  | startSmp k secret q => exact key (lives_existing (lives_startSmp secret q) k) hp
  | abortSmp k => exact key (lives_existing lives_abortSmp k) hp

/-- What a call does to the session with an instance: it goes on, or a new one begins, and that is reported. -/
theorem run_turn {s : Session} (hi : Inv E s) {op : Op} (hp : (op.run E A c s).result ≠ .panic) (k : UInt32) :
    GoesOn E (s.inst k).state ((op.run E A c s).after.inst k).state ∨
      (op.run E A c s).result = .ok (.user (.sessionStarted k)) ∧ Begins E ((op.run E A c s).after.inst k).state := by
  by_cases h : ∃ p, op = .receive p
  · obtain ⟨p, rfl⟩ := h
    rw [Op.run] at hp ⊢
    rw [perform_after, perform_result] at *
    rcases turned_receive (A := A) (c := c) (w := ⟨s, []⟩) hi p with ⟨h1, _⟩ | ⟨m, hd, _, _, _, h1, h2⟩
    · exact .inl (h1.each k).on.1
    · by_cases hk : k = m.sender
      · subst hk
        have hp' : (receive E A c p ⟨s, []⟩).1 ≠ .panic := fun h => hp (by rw [h]; rfl)
        have ⟨t, ht⟩ : ∃ text, parse E text = .ok (.encoded m) := by
          rcases hd with ⟨_, h⟩ | ⟨_, _, _, content, _, _, _, _, _, _, _, h⟩ <;> exact ⟨_, h⟩
        rcases h2 (fun d hd => parse_decoded ht hd) hp' with h3 | ⟨h3, h4⟩
        · exact .inl h3.1
        · refine .inr ⟨?_, h4⟩
          rw [h3]
          have : (s.inst m.sender).receiver = m.sender := hi.receiver _
          simp only [this]
          rfl
      · exact .inl (h1 k hk).on.1
  · exact .inl ((lives_run (fun p hp => h ⟨p, hp⟩) hp).each k).1

end Session
end Otrr
