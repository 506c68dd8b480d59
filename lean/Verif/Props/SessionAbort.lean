import Verif.Spec.SessionAbort
import Verif.Props.SessionSmp
import Verif.Props.SessionEnd
import Verif.Lemmas.SessionAbortToy
/-! C54 for two clients: what follows when one of them aborts the SMP. -/

namespace Otrr.Props
open Otrr Otrr.Spec Otrr.Session

theorem inTransit_ne {A : Account} {c : Call} {m : EncodedMessage} {out : List Bytes} (h : InTransit A c m out) : out ≠ [] := by
  obtain ⟨t, _, h2⟩ := h
  rcases h2 with ⟨_, rfl⟩ | ⟨_, ident, fs, _, h3, h4⟩
  · simp
  · have h5 := fragment_two h3
    rw [← mapM_length h4] at h5
    rintro rfl
    simp at h5

theorem sends_ne {E : Env} {A : Account} {c : Call} {k : UInt32} {t : TLV} {s s' : PState} {out : List Bytes} (h : SendsTlv E A c k t s s' out) : out ≠ [] := by
  obtain ⟨_, _, _, h⟩ := h
  exact inTransit_ne h

/-- An abort is under way from the client of `P` to that of `Q`. -/
def AbortUnderWay (E : Env) (P Q : Account) (sP sQ : Session) (t : Bytes) : Prop :=
  (∃ h, Hist E P h sP) ∧ (∃ h, Hist E Q h sQ) ∧ AllowsV4 P ∧ AllowsV4 Q ∧ 0x100 ≤ P.tag ∧ 0x100 ≤ Q.tag ∧ t.length < 2 ^ 32 ∧
    ∃ a c, MaySend4 E P Q a (stateOf sQ P.tag) ∧ SendsTlv E P c Q.tag ⟨6, []⟩ a (stateOf sP Q.tag) [t] ∧ FreshState a (stateOf sP Q.tag)

/-- What the receiver of an abort does. -/
theorem abort_received {E : Env} (hC : GoodCurve E.curve) (hG : GoodGroup E.dh3) (hg : FitsMpi E.dh3.p) {P Q : Account} {sP sQ : Session} {t : Bytes}
    (h : AbortUnderWay E P Q sP sQ t) (c : Call) (np : ((Op.receive t).run E Q c sQ).result ≠ .panic) :
    let e := (Op.receive t).run E Q c sQ
    e.result = .ok (.user (.smpFailed P.tag)) ∧ e.sent ≠ [] ∧
      ∀ t', OneText e t' → FreshAnswer E c sQ P.tag t e → AbortUnderWay E Q P e.after sP t' := by
  intro e
  obtain ⟨⟨_, hP⟩, ⟨_, hQ⟩, aP, aQ, tP, tQ, hl, a, cP, may, hsend, fr⟩ := h
  obtain ⟨x, m, y, n, rfl, hst, rest⟩ := id may
  obtain ⟨x', hx'⟩ := sends_smp4 hsend
  obtain ⟨y', con, may', st⟩ := smp_step4 hC hG hg hQ aQ tP tQ may hsend fr rfl hl rfl hst c np
  obtain ⟨⟨um, rep, hr⟩, -, hrep⟩ := st (some ⟨6, []⟩) { n with state := .expect1, status := .aborted } rfl
  cases rep
  have hrep := hrep _ rfl
  refine ⟨hr, sends_ne hrep, fun t' one fr' => ?_⟩
  refine ⟨⟨_, Hist.step hQ rfl np⟩, ⟨_, hP⟩, aQ, aP, tQ, tP, one.2.2, .encrypted4 y' { n with state := .expect1, status := .aborted }, c, may' _, ?_, fresh_smp (fr' _ _ con) rfl⟩
  rw [← one.2.1]
  exact hrep

/-- C54 (OTRv4) is violated by the clients: after one user aborts the SMP, every text that arrives is answered.  However many texts were
exchanged because of the abort, the last one again makes the client that receives it tell its user that the SMP failed, and send an answer. -/
theorem C54_session4_violated (E : Env) (hC : GoodCurve E.curve) (hG : GoodGroup E.dh3) (hg : FitsMpi E.dh3.p) (A B : Account)
    (allow : AllowsV4 A ∧ AllowsV4 B) (tags : 0x100 ≤ A.tag ∧ 0x100 ≤ B.tag) (hA hB : List Ev) (sA sB : Session)
    (hhA : Hist E A hA sA) (hhB : Hist E B hB sB) (hcon : MaySend4 E A B (stateOf sA B.tag) (stateOf sB A.tag)) (c : Call) (e : Effect) (text : Bytes)
    (he : e = (Op.abortSmp B.tag).run E A c sA) (one : OneText e text) (fr : FreshSend B.tag sA e.after)
    (n : Nat) (P Q : Account) (sP sQ : Session) (text' : Bytes) (hv : Volley E A B e.after sB text n P Q sP sQ text') (c' : Call)
    (np : ((Op.receive text').run E Q c' sQ).result ≠ .panic) :
    let e' := (Op.receive text').run E Q c' sQ
    e'.result = .ok (.user (.smpFailed P.tag)) ∧ e'.sent ≠ [] := by
  have key : AbortUnderWay E P Q sP sQ text' := by
    clear np
    induction hv with
    | start =>
      obtain ⟨x, m, y, n, sx, sy, rest⟩ := hcon
      have enc : sA.status B.tag = some .encrypted := status_of_inst (by rw [← stateOf_inst, sx]; rfl) (by decide)
      have hab := C73_abort E A hA sA hhA c B.tag enc
      simp only [← he] at hab
      rcases hab with h | ⟨_, s1, hs1, hsend⟩
      · exact absurd h one.1
      rw [sx] at hs1
      rcases hs1 with ⟨_, _, h, _⟩ | ⟨_, _, h, rfl⟩
      · cases h
      cases h
      rw [one.2.1] at hsend
      subst he
      exact ⟨⟨_, .step hhA rfl one.1⟩, ⟨_, hhB⟩, allow.1, allow.2, tags.1, tags.2, one.2.2, _, c, ⟨x, _, y, n, rfl, sy, rest⟩, hsend, fresh_smp fr sx⟩
    | answer _ he1 one1 fr1 ih =>
      subst he1
      exact (abort_received hC hG hg ih _ one1.1).2.2 _ one1 fr1
  exact ⟨(abort_received hC hG hg key c' np).1, (abort_received hC hG hg key c' np).2.1⟩

/-- C54 (OTRv3): after one user aborts the SMP one text is sent; when it arrives, the other user is told that the SMP failed, and nothing is
sent. -/
theorem C54_session3 (E : Env) (hC : GoodCurve E.curve) (hG : GoodGroup E.dh) (hg : FitsMpi E.dh.p) (A B : Account)
    (allow : AllowsV3 B) (tags : 0x100 ≤ A.tag ∧ 0x100 ≤ B.tag) (hA hB : List Ev) (sA sB : Session)
    (hhA : Hist E A hA sA) (hhB : Hist E B hB sB) (hcon : MaySend3 E A B (stateOf sA B.tag) (stateOf sB A.tag)) (c c' : Call) (e e' : Effect) (text : Bytes)
    (he : e = (Op.abortSmp B.tag).run E A c sA) (one : OneText e text) (he' : e' = (Op.receive text).run E B c' sB) (np : e'.result ≠ .panic) :
    e.result = .ok .done ∧ e'.result = .ok (.user (.smpFailed A.tag)) ∧ e'.sent = [] ∧
      MaySend3 E B A (stateOf e'.after A.tag) (stateOf e.after B.tag) := by
  obtain ⟨x, m, y, n, sx, sy, rest⟩ := hcon
  have enc : sA.status B.tag = some .encrypted := status_of_inst (by rw [← stateOf_inst, sx]; rfl) (by decide)
  have hab := C73_abort E A hA sA hhA c B.tag enc
  simp only [← he] at hab
  rcases hab with h | ⟨hr, s1, hs1, hsend⟩
  · exact absurd h one.1
  rw [sx] at hs1
  rcases hs1 with ⟨_, _, h, rfl⟩ | ⟨_, _, h, _⟩
  · cases h
    subst he'
    obtain ⟨y', con, may', st⟩ := smp_step3 hC hG hg hhB allow tags.1 tags.2 ⟨x, _, y, n, rfl, sy, rest⟩ hsend one.2.1 one.2.2 rfl sy c' np
    obtain ⟨⟨um, rep, hr'⟩, hrep, -⟩ := st none { n with state := .expect1, status := .aborted } rfl
    cases rep
    obtain ⟨h1, h2⟩ := hrep rfl
    exact ⟨hr, hr', h1, by rw [h2]; exact may' _⟩
  · cases h

open ToySession in
/-- The hypotheses of `C54_session4_violated` hold of the toy clients: Bob aborts, Alice answers, and when this text arrives at Bob's client it sends a
third one. -/
example : k18.result = .ok (.user (.smpFailed 0x100)) ∧ k18.sent ≠ [] := by
  obtain ⟨⟨_, hA⟩, ⟨_, hB⟩, may⟩ := ToyEnd.talked
  obtain ⟨⟨r1, s1, l1⟩, ⟨r2, s2, l2⟩, f1, f2, r3, _⟩ := runAbort
  have e3 : (Op.receive (msg l17)).run tinyEnv acB (meetB 5000 18) k16.after = k18 := by unfold k18; rfl
  have h := C54_session4_violated tinyEnv toy_meet.curve (by constructor <;> decide) toy_meet.group acB acA toy_meet.allow.symm toy_meet.tags.symm _ _ _ _ hB hA
    may (meetB 5000 5) k16 (msg k16) (by unfold k16; rfl) ⟨by rw [r1]; simp, s1, l1⟩ (fresh_of f1) 1 acA acB l17.after k16.after (msg l17)
    (.answer (c := meetA 5000 5) .start (by unfold l17; rfl) ⟨by rw [r2]; simp, s2, l2⟩ (freshAnswer_of f2)) (meetB 5000 18) (by rw [e3, r3]; simp)
  dsimp only at h
  rw [e3] at h
  exact h

open ToySession in
/-- The hypotheses of `C54_session3` hold of the toy clients. -/
example : b17.sent = [] := by
  obtain ⟨_, hA⟩ := hist_a4
  obtain ⟨_, hB⟩ := hist_b5
  obtain ⟨_, _, h, _⟩ := ToyTalk3.acquainted
  obtain ⟨r1, s1, l1, r2⟩ := runAbort3
  exact (C54_session3 tinyEnv toy_goodCurve toy_meet3.group ⟨1, by decide, by decide +kernel⟩ acA acB toy_meet3.allow.2 toy_meet3.tags _ _ _ _ hA hB h.1
    (callA 1000 16) (callB 1000 17) a16 b17 (msg a16) (by unfold a16; rfl) ⟨by rw [r1]; simp, s1, l1⟩ (by unfold b17; rfl) (by rw [r2]; simp)).2.2.1

end Otrr.Props
