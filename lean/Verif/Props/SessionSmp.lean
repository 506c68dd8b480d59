import Verif.Spec.SessionSmp
import Verif.Props.SessionExchange3
import Verif.Props.SessionConsent
import Verif.Lemmas.SmpRun
import Verif.Lemmas.Smp4Run
import Verif.Lemmas.SessionSmpToy3
import Verif.Props.Smp
/-!
# C83: two clients run the SMP with each other
-/

namespace Otrr.Props
open Otrr Otrr.Spec Otrr.Session

/-! ## Data messages that arrive -/

/-- What is sent as one text is not fragmented. -/
theorem whole_of_one {A : Account} {c : Call} {m : EncodedMessage} {text : Bytes} (h : InTransit A c m [text]) : serialize (.encoded m) = .ok text := by
  obtain ⟨t, h1, h2⟩ := h
  rcases h2 with ⟨_, h2⟩ | ⟨h2, ident, fs, _, h3, h4⟩
  · cases h2; exact h1
  · have h5 := fragment_two h3
    rw [← mapM_length h4] at h5
    simp at h5

/-- An OTRv3 data message arrives, if it is the sender's turn. -/
theorem arrives3 {E : Env} (hC : GoodCurve E.curve) (hG : GoodGroup E.dh) (hg : FitsMpi E.dh.p) {S R : Account} (tS : 0x100 ≤ S.tag) (tR : 0x100 ≤ R.tag)
    {a a' b : PState} (hm : MaySend3 E S R a b) {flags : UInt8} (hfl : flags = 0 ∨ flags = 1) {plain content : Bytes} {tlvs : List TLV}
    (hcomp : Composed content tlvs plain) {c : Call} {m : EncodedMessageType} (henc : Encrypts E c flags plain a a' m) {text : Bytes}
    (htxt : serialize (.encoded ⟨a.version, S.tag, R.tag, m⟩) = .ok text) (hl : text.length < 2 ^ 32) (c' : Call) :
    ∃ y n y', b = .encrypted3 y n ∧ parse E text = .ok (.encoded ⟨.v3, S.tag, R.tag, m⟩) ∧
      DecryptsTo E c' ⟨.v3, S.tag, R.tag, m⟩ b (received content tlvs).1 (if (received content tlvs).2 then .finished else .encrypted3 y' n) ∧
      ∀ n', MaySend3 E R S (.encrypted3 y' n') a' := by
  obtain ⟨x, mx, y, n, rfl, rfl, o1, o2, o3, o4, ht⟩ := hm
  obtain ⟨x', d, rfl, rfl, he⟩ : ∃ x' d, a' = .encrypted3 x' mx ∧ m = .data d ∧ Enc3.encrypt E flags plain x = (.ok d, x') := by
    rcases henc with ⟨_, x', _, d, h1, h2, h3, h4⟩ | ⟨_, _, _, _, _, h, _⟩
    · cases h1; exact ⟨x', d, h2, h3, h4⟩
    · cases h
  obtain ⟨hr, _⟩ := turns3_inv hG ht
  obtain ⟨hdec, hfit⟩ := sent3 hG hg hr he
  obtain ⟨h0, hwf⟩ := data3_wf he hfl hdec hfit htxt hl
  obtain ⟨t, h1, h2⟩ := C03_transport E hC ⟨.v3, S.tag, R.tag, .data d⟩ (.inr tS) (.inr tR) rfl hwf
  have h1' := htxt.symm.trans h1
  cases h1'
  obtain ⟨_, q1, q2⟩ := encrypt_keys he
  have hh := C37_turns E hG x y ht flags plain content tlvs hcomp d x' he (c'.rnd.bytes [0] 192)
  cases hh' : Enc3.handle E d (authenticatorData 3 x.our y.our d) (c'.rnd.bytes [0] 192) y with
  | mk r y' =>
  rw [hh'] at hh
  simp only at hh
  subst hh
  obtain ⟨_, _, q3, q4, _⟩ := handle_decrypt hh'
  have ht' := Turns3.turn ht he hh' (by simp)
  rw [o1, o3] at hh'
  refine ⟨y, n, y', rfl, h2, .inl ⟨y, n, d, y', _, rfl, rfl, rfl, hh', ?_⟩, fun n' =>
    ⟨y', n', x', mx, rfl, rfl, by rw [q3, o3], by rw [q4, o4], by rw [q1, o1], by rw [q2, o2], ht'⟩⟩
  rfl

theorem calm_own {E : Env} (hC : GoodCurve E.curve) (hG : GoodGroup E.dh3) {s : Pair4} (h : Calm4 E s) : Own E s.a.ratchet ∧ Own E s.b.ratchet := by
  obtain ⟨I, _⟩ := reach4_inv hC hG h.reach
  exact own_of I.rel

/-- An OTRv4 data message arrives. -/
theorem arrives4 {E : Env} (hC : GoodCurve E.curve) (hG : GoodGroup E.dh3) (hg : FitsMpi E.dh3.p) {S R : Account} (tS : 0x100 ≤ S.tag) (tR : 0x100 ≤ R.tag)
    {a a' b : PState} (hm : MaySend4 E S R a b) {flags : UInt8} (hfl : flags = 0 ∨ flags = 1) {plain content : Bytes} {tlvs : List TLV}
    (hcomp : Composed content tlvs plain) {c : Call} {m : EncodedMessageType} (henc : Encrypts E c flags plain a a' m) (hfr : FreshState a a') {text : Bytes}
    (htxt : serialize (.encoded ⟨a.version, S.tag, R.tag, m⟩) = .ok text) (hl : text.length < 2 ^ 32) (c' : Call) :
    ∃ y n y', b = .encrypted4 y n ∧ parse E text = .ok (.encoded ⟨.v4, S.tag, R.tag, m⟩) ∧
      DecryptsTo E c' ⟨.v4, S.tag, R.tag, m⟩ b (received content tlvs).1 (if (received content tlvs).2 then .finished else .encrypted4 y' n) ∧
      ∀ n', MaySend4 E R S (.encrypted4 y' n') a' := by
  obtain ⟨x, mx, y, n, rfl, rfl, o1, o2, o3, o4, ht⟩ := hm
  obtain ⟨x', d, rnd, rfl, rfl, he⟩ : ∃ x' d rnd, a' = .encrypted4 x' mx ∧ m = .data4 d ∧ Enc4.encrypt E flags plain rnd c.now x = (.ok d, x') := by
    rcases henc with ⟨_, _, _, _, h, _⟩ | ⟨_, x', _, d, rnd, h1, h2, h3, h4⟩
    · cases h
    · cases h1; exact ⟨x', d, rnd, h2, h3, h4⟩
  have e1 : x'.our = S.tag ∧ x'.their = R.tag := by rw [(encrypt4_enc he).2]; exact ⟨o1, o2⟩
  have hfr := hfr _ _ _ _ rfl rfl
  obtain ⟨hown, y', hy', ht'⟩ : Own E x'.ratchet ∧ ∃ y', Enc4.handle E d (authenticatorData4 4 S.tag R.tag d) c'.now y = (.ok (received content tlvs), y') ∧
      (Calm4 E ⟨y', x', [], []⟩ ∨ Calm4 E ⟨x', y', [], []⟩) := by
    rcases ht with ht | ht
    · have calm := Calm4.sendA ht rfl he hfr
      have hh := C47_calm E hC hG _ calm d _ _ _ [] rfl hcomp c'.now
      simp only [e1.1, o3] at hh
      refine ⟨(calm_own hC hG calm).1, _, Prod.ext hh rfl, .inr ?_⟩
      exact Calm4.recvB (now := c'.now) (r := .ok (received content tlvs)) calm rfl (by simp only [e1.1, o3]; exact Prod.ext hh rfl) (by simp)
    · have calm := Calm4.sendB ht rfl he hfr
      have hh := C47_calm' E hC hG _ calm d _ _ _ [] rfl hcomp c'.now
      simp only [e1.1, o3] at hh
      refine ⟨(calm_own hC hG calm).2, _, Prod.ext hh rfl, .inl ?_⟩
      exact Calm4.recvA (now := c'.now) (r := .ok (received content tlvs)) calm rfl (by simp only [e1.1, o3]; exact Prod.ext hh rfl) (by simp)
  obtain ⟨hv, hwf⟩ := data4_wf hC hG hg he hfl hown htxt hl
  obtain ⟨t, h1, h2⟩ := C03_transport E hC ⟨.v4, S.tag, R.tag, .data4 d⟩ (.inr tS) (.inr tR) rfl hwf
  have h1' := htxt.symm.trans h1
  cases h1'
  have e2 := handle4_tags hy'
  exact ⟨y, n, y', rfl, h2, .inr ⟨y, n, d, y', _, rfl, rfl, rfl, hv, hy', rfl⟩, fun n' =>
    ⟨y', n', x', mx, rfl, rfl, by rw [e2.1, o3], by rw [e2.2, o4], e1.1, e1.2, ht'⟩⟩

theorem onlyTlv_composed {t : TLV} (h : t.value.length < 2 ^ 16) : Composed [] [t] (onlyTlv t) :=
  ⟨by simp, by simpa using h, .inl (by simp [onlyTlv])⟩

theorem received_smp {v : Version} {t : TLV} (h : SmpType v t) : received [] [t] = (.confidential [] [t], false) := by
  have h1 : t.typ ≠ 1 ∧ t.typ ≠ 0 := by
    rcases h with h | ⟨_, h⟩
    · simp only [List.mem_cons, List.not_mem_nil, or_false] at h
      rcases h with h | h | h | h | h <;> rw [h] <;> decide
    · rw [h]; decide
  simp [received, h1.1, h1.2]

/-! ## One step of the SMP -/

/-- The receiver of an SMP message in an OTRv3 session. -/
theorem smp_step3 {E : Env} (hC : GoodCurve E.curve) (hG : GoodGroup E.dh) (hg : FitsMpi E.dh.p) {S R : Account} {h : List Ev} {sR : Session}
    (hhR : Hist E R h sR) (aR : AllowsV3 R) (tS : 0x100 ≤ S.tag) (tR : 0x100 ≤ R.tag) {a a' : PState} (hm : MaySend3 E S R a (stateOf sR S.tag))
    {c : Call} {t : TLV} {sent : List Bytes} (hsend : SendsTlv E S c R.tag t a a' sent) {text : Bytes} (hone : sent = [text]) (hl : text.length < 2 ^ 32)
    (hty : SMP.isSmpTlv t = true) {y : Enc3} {n : SMPContext} (hst : stateOf sR S.tag = .encrypted3 y n) (c' : Call)
    (np : ((Op.receive text).run E R c' sR).result ≠ .panic) :
    ∃ y', Conveys E c' sR S.tag text t (.encrypted3 y' n) ∧ (∀ n', MaySend3 E R S (.encrypted3 y' n') a') ∧
      ∀ reply n', SMP.handle E c'.smp t (c'.rnd.sub 1) n = (.ok reply, n') →
        (∃ um, SmpReported S.tag n'.status um ∧ ((Op.receive text).run E R c' sR).result = .ok (.user um)) ∧
        (reply = none → ((Op.receive text).run E R c' sR).sent = [] ∧ stateOf ((Op.receive text).run E R c' sR).after S.tag = .encrypted3 y' n') ∧
        ∀ r, reply = some r → SendsTlv E R c' S.tag r (.encrypted3 y' n') (stateOf ((Op.receive text).run E R c' sR).after S.tag)
          ((Op.receive text).run E R c' sR).sent := by
  obtain ⟨hlen, m, henc, htr⟩ := hsend
  rw [hone] at htr
  have hser := whole_of_one htr
  have hst' : SmpType .v3 t := (isSmpTlv_iff (.inl rfl) t).mp hty
  obtain ⟨y0, n0, y', hb, hp, hdec, hmay⟩ := arrives3 hC hG hg tS tR hm (.inr rfl) (onlyTlv_composed hlen) henc hser hl c'
  rw [hst] at hb
  cases hb
  rw [received_smp hst'] at hdec
  refine ⟨y', ⟨_, hp, hdec⟩, hmay, fun reply n' hh => ?_⟩
  rcases C72_smp E R h sR hhR c' text _ (.inl ⟨encoded_notFragment hser, hp⟩) (.inl ⟨rfl, aR⟩) (tag_ne_zero tS) rfl (tag_ne_zero tR) [] [] [] t _ hdec hst' (by simp) with
    hx | ⟨s2, reply', st, um, hans, hrep, h1, h2, h3⟩
  · exact absurd hx np
  obtain ⟨rfl, rfl⟩ : reply' = reply ∧ s2 = .encrypted3 y' n' := by
    rcases hans with ⟨x1, n1, n2, e1, e2, e3⟩ | ⟨_, _, _, e1, _⟩
    · cases e1
      rw [hh] at e3
      cases e3
      exact ⟨rfl, e2⟩
    · cases e1
  cases h1
  refine ⟨⟨um, h2, h3⟩, ?_, ?_⟩
  · rintro rfl
    rcases hrep with ⟨_, h4, h5⟩ | ⟨_, h4, _⟩
    · exact ⟨h4, h5⟩
    · cases h4
  · rintro r rfl
    rcases hrep with ⟨h4, _⟩ | ⟨_, h4, h5⟩
    · cases h4
    · cases h4; exact h5

/-- The receiver of an SMP message in an OTRv4 session. -/
theorem smp_step4 {E : Env} (hC : GoodCurve E.curve) (hG : GoodGroup E.dh3) (hg : FitsMpi E.dh3.p) {S R : Account} {h : List Ev} {sR : Session}
    (hhR : Hist E R h sR) (aR : AllowsV4 R) (tS : 0x100 ≤ S.tag) (tR : 0x100 ≤ R.tag) {a a' : PState} (hm : MaySend4 E S R a (stateOf sR S.tag))
    {c : Call} {t : TLV} {sent : List Bytes} (hsend : SendsTlv E S c R.tag t a a' sent) (hfr : FreshState a a') {text : Bytes} (hone : sent = [text])
    (hl : text.length < 2 ^ 32)
    (hty : SMP4.isSmpTlv t = true) {y : Enc4} {n : SMP4Context} (hst : stateOf sR S.tag = .encrypted4 y n) (c' : Call)
    (np : ((Op.receive text).run E R c' sR).result ≠ .panic) :
    ∃ y', Conveys E c' sR S.tag text t (.encrypted4 y' n) ∧ (∀ n', MaySend4 E R S (.encrypted4 y' n') a') ∧
      ∀ reply n', SMP4.handle E c'.smp t (c'.rnd.sub 1) n = (.ok reply, n') →
        (∃ um, SmpReported S.tag n'.status um ∧ ((Op.receive text).run E R c' sR).result = .ok (.user um)) ∧
        (reply = none → ((Op.receive text).run E R c' sR).sent = [] ∧ stateOf ((Op.receive text).run E R c' sR).after S.tag = .encrypted4 y' n') ∧
        ∀ r, reply = some r → SendsTlv E R c' S.tag r (.encrypted4 y' n') (stateOf ((Op.receive text).run E R c' sR).after S.tag)
          ((Op.receive text).run E R c' sR).sent := by
  obtain ⟨hlen, m, henc, htr⟩ := hsend
  rw [hone] at htr
  have hser := whole_of_one htr
  have hst' : SmpType .v4 t := (isSmpTlv_iff (.inr rfl) t).mp hty
  obtain ⟨y0, n0, y', hb, hp, hdec, hmay⟩ := arrives4 hC hG hg tS tR hm (.inr rfl) (onlyTlv_composed hlen) henc hfr hser hl c'
  rw [hst] at hb
  cases hb
  rw [received_smp hst'] at hdec
  refine ⟨y', ⟨_, hp, hdec⟩, hmay, fun reply n' hh => ?_⟩
  rcases C72_smp E R h sR hhR c' text _ (.inl ⟨encoded_notFragment hser, hp⟩) (.inr ⟨rfl, aR⟩) (tag_ne_zero tS) rfl (tag_ne_zero tR) [] [] [] t _ hdec hst' (by simp) with
    hx | ⟨s2, reply', st, um, hans, hrep, h1, h2, h3⟩
  · exact absurd hx np
  obtain ⟨rfl, rfl⟩ : reply' = reply ∧ s2 = .encrypted4 y' n' := by
    rcases hans with ⟨_, _, _, e1, _⟩ | ⟨x1, n1, n2, e1, e2, e3⟩
    · cases e1
    · cases e1
      rw [hh] at e3
      cases e3
      exact ⟨rfl, e2⟩
  cases h1
  refine ⟨⟨um, h2, h3⟩, ?_, ?_⟩
  · rintro rfl
    rcases hrep with ⟨_, h4, h5⟩ | ⟨_, h4, _⟩
    · exact ⟨h4, h5⟩
    · cases h4
  · rintro r rfl
    rcases hrep with ⟨h4, _⟩ | ⟨_, h4, h5⟩
    · cases h4
    · cases h4; exact h5

/-- A text that is sent keeps the SMP as it is. -/
theorem sends_smp3 {E : Env} {A : Account} {c : Call} {k : UInt32} {t : TLV} {y : Enc3} {n : SMPContext} {s' : PState} {sent : List Bytes}
    (h : SendsTlv E A c k t (.encrypted3 y n) s' sent) : ∃ y', s' = .encrypted3 y' n := by
  obtain ⟨_, m, henc, _⟩ := h
  rcases henc with ⟨_, x', _, _, h1, h2, _⟩ | ⟨_, _, _, _, _, h, _⟩
  · cases h1; exact ⟨x', h2⟩
  · cases h

theorem sends_smp4 {E : Env} {A : Account} {c : Call} {k : UInt32} {t : TLV} {y : Enc4} {n : SMP4Context} {s' : PState} {sent : List Bytes}
    (h : SendsTlv E A c k t (.encrypted4 y n) s' sent) : ∃ y', s' = .encrypted4 y' n := by
  obtain ⟨_, m, henc, _⟩ := h
  rcases henc with ⟨_, _, _, _, h, _⟩ | ⟨_, x', _, _, _, h1, h2, _⟩
  · cases h
  · cases h1; exact ⟨x', h2⟩

/-! ## The whole SMP -/

theorem hist_next {E : Env} {A : Account} {h : List Ev} {s : Session} {op : Op} {c : Call} {e : Effect} (hh : Hist E A h s) (he : e = op.run E A c s)
    (np : e.result ≠ .panic) : ∃ h', Hist E A h' e.after :=
  ⟨_, Hist.step hh (op := op) (c := c) he.symm np⟩

/-- C83 (OTRv3): two clients that have a session with each other run the SMP: one starts it, and every text that is sent is received.
If the numbers derived from the secrets are the same, then both are told that it succeeded, else that it failed; and the clients can go on
talking. -/
theorem C83_smp3 (E : Env) (hC : GoodCurve E.curve) (hS : SmpGroup E.dh) (hG : GoodGroup E.dh) (hg : FitsMpi E.dh.p) (A B : Account)
    (allow : AllowsV3 A ∧ AllowsV3 B) (tags : 0x100 ≤ A.tag ∧ 0x100 ≤ B.tag) (hA hB : List Ev) (sA sB : Session)
    (hhA : Hist E A hA sA) (hhB : Hist E B hB sB) (kA kB : DSAPublicKey) (ssid : Bytes) (hcon : Acquainted3 E A B kA kB ssid sA sB)
    (secret answer q : Bytes) (hq : ∀ b ∈ q, b ≠ 0) (c1 c2 c3 c4 c5 : Call) (t1 t2 t3 t4 : Bytes) (e1 e2 e3 e4 e5 : Effect)
    (h1 : e1 = (Op.startSmp B.tag secret q).run E A c1 sA) (h2 : e2 = (Op.receive t1).run E B c2 sB)
    (h3 : e3 = (Op.receive t2).run E A c3 e1.after) (h4 : e4 = (Op.receive t3).run E B c4 e2.after)
    (h5 : e5 = (Op.receive t4).run E A c5 e3.after)
    (o1 : OneText e1 t1) (o2 : OneText e2 t2) (o3 : OneText e3 t3) (o4 : OneText e4 t4) (o5 : e5.result ≠ .panic)
    (keyA : c1.smp.key = some kA) (keyB : c2.smp.key = some kB) (ans : c2.smp.secret q = some answer)
    (p1 : Numbers3 E c2 sB A.tag t1 (Proper1 E.dh)) (p2 : Numbers3 E c3 e1.after B.tag t2 (Proper2 E.dh))
    (p3 : Numbers3 E c4 e2.after A.tag t3 (Proper3 E.dh)) (p4 : Numbers3 E c5 e3.after B.tag t4 (Proper4 E.dh)) :
    let x := secretNumber E (fingerprint3 E kA) (fingerprint3 E kB) ssid secret
    let y := secretNumber E (fingerprint3 E kA) (fingerprint3 E kB) ssid answer
    e1.result = .ok .done ∧ e2.result = .ok (.user .none) ∧ e3.result = .ok (.user .none) ∧
    (x % E.dh.q = y % E.dh.q → e4.result = .ok (.user (.smpSucceeded A.tag)) ∧ e5.result = .ok (.user (.smpSucceeded B.tag))) ∧
    (x % E.dh.q ≠ y % E.dh.q → e4.result = .ok (.user (.smpFailed A.tag)) ∧ e5.result = .ok (.user (.smpFailed B.tag))) ∧
    e5.sent = [] ∧ Acquainted3 E A B kA kB ssid e5.after e4.after := by
  obtain ⟨may, idleA, idleB, x, m, y, n, sx, sy, m1, n1, m2, n2⟩ := hcon
  have stA : m.state = .expect1 := by
    rw [sx] at idleA; simpa [SmpBusy] using idleA
  have stB : n.state = .expect1 := by
    rw [sy] at idleB; simpa [SmpBusy] using idleB
  obtain ⟨u1, M1, v1, hs, i1, ty1, nu1, k⟩ := SMP.run3_types hS (sA := secret) keyA keyB stA stB (m1.trans n1.symm) hq ans m2 n2
    (c1.rnd.sub 0) (c2.rnd.sub 1) (c3.rnd.sub 1) (c4.rnd.sub 1) (c5.rnd.sub 1) (hostA := c1.smp) (hostB := c2.smp) (hostA3 := c3.smp)
    (hostB4 := c4.smp) (hostA5 := c5.smp)
  -- Alice starts
  have enc : sA.status B.tag = some .encrypted := status_of_inst (by rw [← stateOf_inst, sx]; rfl) (by decide)
  have hst := (C73_start E A hA sA hhA c1 B.tag secret q enc).2 idleA
  rw [← h1] at hst
  rcases hst with hst | ⟨r1, u, s1, hstart, hsend1⟩
  · exact absurd hst o1.1
  obtain ⟨rfl, rfl⟩ : u = u1 ∧ s1 = .encrypted3 x M1 := by
    rcases hstart with ⟨x1, n1, n2, e1, e2, e3⟩ | ⟨_, _, _, e1, _⟩
    · rw [sx] at e1
      cases e1
      rw [hs] at e3
      cases e3
      exact ⟨rfl, e2⟩
    · rw [sx] at e1; cases e1
  obtain ⟨x1, sx1⟩ := sends_smp3 hsend1
  have may1 : MaySend3 E A B (.encrypted3 x M1) (stateOf sB A.tag) := by
    obtain ⟨x', m', y', n', g1, g2, g⟩ := may
    rw [sx] at g1
    cases g1
    exact ⟨x, M1, y', n', rfl, g2, g⟩
  obtain ⟨_, hhA1⟩ := hist_next hhA h1 o1.1
  -- Bob answers
  obtain ⟨y1, con1, may2, st2⟩ := smp_step3 hC hG hg hhB allow.2 tags.1 tags.2 may1 hsend1 o1.2.1 o1.2.2 ty1 sy c2 (by rw [← h2]; exact o2.1)
  rw [← h2] at st2
  obtain ⟨u2, N1, v2, hh2, i2, ty2, nu2, k⟩ := k (p1 _ _ _ con1 nu1)
  obtain ⟨⟨um2, rep2, r2⟩, -, hsend2⟩ := st2 _ _ hh2
  have hsend2 := hsend2 _ rfl
  obtain ⟨y2, sy2⟩ := sends_smp3 hsend2
  have may2 := may2 N1
  obtain ⟨_, hhB1⟩ := hist_next hhB h2 o2.1
  -- Alice
  obtain ⟨x2, con2, may3, st3⟩ := smp_step3 hC hG hg hhA1 allow.1 tags.2 tags.1 may2 hsend2 o2.2.1 o2.2.2 ty2 sx1 c3 (by rw [← h3]; exact o3.1)
  rw [← h3] at st3
  obtain ⟨u3, M2, v3, hh3, i3, ty3, nu3, k⟩ := k (p2 _ _ _ con2 nu2)
  obtain ⟨⟨um3, rep3, r3⟩, -, hsend3⟩ := st3 _ _ hh3
  have hsend3 := hsend3 _ rfl
  obtain ⟨x3, sx3⟩ := sends_smp3 hsend3
  have may3 := may3 M2
  obtain ⟨_, hhA2⟩ := hist_next hhA1 h3 o3.1
  -- Bob is done
  obtain ⟨y3, con3, may4, st4⟩ := smp_step3 hC hG hg hhB1 allow.2 tags.1 tags.2 may3 hsend3 o3.2.1 o3.2.2 ty3 sy2 c4 (by rw [← h4]; exact o4.1)
  rw [← h4] at st4
  obtain ⟨u4, N2, v4, hh4, i4, id4, ss4, th4, ty4, nu4, k⟩ := k (p3 _ _ _ con3 nu3)
  obtain ⟨⟨um4, rep4, r4⟩, -, hsend4⟩ := st4 _ _ hh4
  have hsend4 := hsend4 _ rfl
  obtain ⟨y4, sy4⟩ := sends_smp3 hsend4
  have may4 := may4 N2
  -- Alice is done
  obtain ⟨x4, con4, may5, st5⟩ := smp_step3 hC hG hg hhA2 allow.1 tags.2 tags.1 may4 hsend4 o4.2.1 o4.2.2 ty4 sx3 c5 (by rw [← h5]; exact o5)
  rw [← h5] at st5
  obtain ⟨M3, hh5, i5, id5, ss5, th5⟩ := k (p4 _ _ _ con4 nu4)
  obtain ⟨⟨um5, rep5, r5⟩, hsent5, -⟩ := st5 _ _ hh5
  obtain ⟨hsent5, sx5⟩ := hsent5 rfl
  have may5 := may5 M3
  rw [i2] at rep2
  cases rep2
  rw [i3] at rep3
  cases rep3
  rw [m1] at i4 i5
  intro X Y
  refine ⟨r1, r2, r3, fun hxy => ?_, fun hxy => ?_, hsent5, ?_, ?_, ?_, x4, M3, y4, N2, sx5, sy4, by rw [ss5, m1], by rw [ss4, n1],
    by rw [th5, m2], by rw [th4, n2]⟩
  · rw [i4, SMP.outcome, if_pos hxy] at rep4
    cases rep4
    rw [i5, SMP.outcome, if_pos hxy] at rep5
    cases rep5
    exact ⟨r4, r5⟩
  · rw [i4, SMP.outcome, if_neg hxy] at rep4
    cases rep4
    rw [i5, SMP.outcome, if_neg hxy] at rep5
    cases rep5
    exact ⟨r4, r5⟩
  · rw [sx5]; exact may5
  · rw [sx5]; simp [SmpBusy, id5]
  · rw [sy4]; simp [SmpBusy, id4]

/-- The condition on new keys does not depend on the SMP. -/
theorem fresh_smp {s : PState} {x : Enc4} {m m' : SMP4Context} {a' : PState} (h : FreshState s a') (hs : s = .encrypted4 x m) :
    FreshState (.encrypted4 x m') a' := by
  intro x1 m1 x2 m2 e1 e2
  cases e1
  exact h x m x2 m2 hs e2

/-- C83 (OTRv4): the same. -/
theorem C83_smp4 (E : Env) (hC : SmpCurve E.curve) (hG : GoodGroup E.dh3) (hg : FitsMpi E.dh3.p) (A B : Account)
    (allow : AllowsV4 A ∧ AllowsV4 B) (tags : 0x100 ≤ A.tag ∧ 0x100 ≤ B.tag) (hA hB : List Ev) (sA sB : Session)
    (hhA : Hist E A hA sA) (hhB : Hist E B hB sB) (fA fB ssid : Bytes) (hcon : Acquainted4 E A B fA fB ssid sA sB)
    (secret answer q : Bytes) (hq : q.length < 2 ^ 32) (c1 c2 c3 c4 c5 : Call) (t1 t2 t3 t4 : Bytes) (e1 e2 e3 e4 e5 : Effect)
    (h1 : e1 = (Op.startSmp B.tag secret q).run E A c1 sA) (h2 : e2 = (Op.receive t1).run E B c2 sB)
    (h3 : e3 = (Op.receive t2).run E A c3 e1.after) (h4 : e4 = (Op.receive t3).run E B c4 e2.after)
    (h5 : e5 = (Op.receive t4).run E A c5 e3.after)
    (o1 : OneText e1 t1) (o2 : OneText e2 t2) (o3 : OneText e3 t3) (o4 : OneText e4 t4) (o5 : e5.result ≠ .panic)
    (fr1 : FreshSend B.tag sA e1.after) (fr2 : FreshAnswer E c2 sB A.tag t1 e2) (fr3 : FreshAnswer E c3 e1.after B.tag t2 e3)
    (fr4 : FreshAnswer E c4 e2.after A.tag t3 e4)
    (ans : c2.smp.secret q = some answer) (hn : GoodNumbers4 E (c1.rnd.sub 0) (c2.rnd.sub 1) (secretNumber4 E fA fB ssid answer))
    (p1 : Fields4 E c2 sB A.tag t1 Form1) (p2 : Fields4 E c3 e1.after B.tag t2 Form2)
    (p3 : Fields4 E c4 e2.after A.tag t3 Form3) (p4 : Fields4 E c5 e3.after B.tag t4 Form4) :
    let x := secretNumber4 E fA fB ssid secret
    let y := secretNumber4 E fA fB ssid answer
    e1.result = .ok .done ∧ e2.result = .ok (.user .none) ∧ e3.result = .ok (.user .none) ∧
    (x % E.curve.q = y % E.curve.q → e4.result = .ok (.user (.smpSucceeded A.tag)) ∧ e5.result = .ok (.user (.smpSucceeded B.tag))) ∧
    (x % E.curve.q ≠ y % E.curve.q → e4.result = .ok (.user (.smpFailed A.tag)) ∧ e5.result = .ok (.user (.smpFailed B.tag))) ∧
    e5.sent = [] ∧ Acquainted4 E A B fA fB ssid e5.after e4.after := by
  obtain ⟨may, x, m, y, n, sx, sy, m1, n1, mu, mt, nu, nt, m2, m3, n2, n3⟩ := hcon
  obtain ⟨u1, M1, v1, hs, i1, ty1, fo1, nu1, k⟩ := SMP4.run4_types hC (sA := secret) m3 n2 (mu.trans nt.symm) (mt.trans nu.symm) (m1.trans n1.symm) hq ans
    (c1.rnd.sub 0) (c2.rnd.sub 1) (c3.rnd.sub 1) (c4.rnd.sub 1) (c5.rnd.sub 1) hn.1 hn.2.1 (by rw [mu, mt, m1]; exact hn.2.2) (hostB := c2.smp)
    (hostA3 := c3.smp) (hostB4 := c4.smp) (hostA5 := c5.smp)
  have idleA : ¬ SmpBusy (stateOf sA B.tag) := by rw [sx]; exact m3
  -- Alice starts
  have enc : sA.status B.tag = some .encrypted := status_of_inst (by rw [← stateOf_inst, sx]; rfl) (by decide)
  have hst := (C73_start E A hA sA hhA c1 B.tag secret q enc).2 idleA
  rw [← h1] at hst
  rcases hst with hst | ⟨r1, u, s1, hstart, hsend1⟩
  · exact absurd hst o1.1
  obtain ⟨rfl, rfl⟩ : u = u1 ∧ s1 = .encrypted4 x M1 := by
    rcases hstart with ⟨_, _, _, e1, _⟩ | ⟨x1, n1, n2, e1, e2, e3⟩
    · rw [sx] at e1; cases e1
    · rw [sx] at e1
      cases e1
      rw [hs] at e3
      cases e3
      exact ⟨rfl, e2⟩
  obtain ⟨x1, sx1⟩ := sends_smp4 hsend1
  have may1 : MaySend4 E A B (.encrypted4 x M1) (stateOf sB A.tag) := by
    obtain ⟨x', m', y', n', g1, g2, g⟩ := may
    rw [sx] at g1
    cases g1
    exact ⟨x, M1, y', n', rfl, g2, g⟩
  obtain ⟨_, hhA1⟩ := hist_next hhA h1 o1.1
  -- Bob answers
  obtain ⟨y1, con1, may2, st2⟩ := smp_step4 hC.good hG hg hhB allow.2 tags.1 tags.2 may1 hsend1 (fresh_smp fr1 sx) o1.2.1 o1.2.2 ty1 sy c2 (by rw [← h2]; exact o2.1)
  rw [← h2] at st2
  obtain ⟨u2, N1, v2, hh2, i2, ty2, fo2, nu2, k⟩ := k (p1 _ _ _ _ con1 nu1 fo1)
  obtain ⟨⟨um2, rep2, r2⟩, -, hsend2⟩ := st2 _ _ hh2
  have hsend2 := hsend2 _ rfl
  obtain ⟨y2, sy2⟩ := sends_smp4 hsend2
  have may2 := may2 N1
  obtain ⟨_, hhB1⟩ := hist_next hhB h2 o2.1
  -- Alice
  obtain ⟨x2, con2, may3, st3⟩ := smp_step4 hC.good hG hg hhA1 allow.1 tags.2 tags.1 may2 hsend2 (fresh_smp (fr2 _ _ con1) rfl) o2.2.1 o2.2.2 ty2 sx1 c3 (by rw [← h3]; exact o3.1)
  rw [← h3] at st3
  obtain ⟨u3, M2, v3, hh3, i3, ty3, fo3, nu3, k⟩ := k (p2 _ _ _ _ con2 nu2 fo2)
  obtain ⟨⟨um3, rep3, r3⟩, -, hsend3⟩ := st3 _ _ hh3
  have hsend3 := hsend3 _ rfl
  obtain ⟨x3, sx3⟩ := sends_smp4 hsend3
  have may3 := may3 M2
  obtain ⟨_, hhA2⟩ := hist_next hhA1 h3 o3.1
  -- Bob is done
  obtain ⟨y3, con3, may4, st4⟩ := smp_step4 hC.good hG hg hhB1 allow.2 tags.1 tags.2 may3 hsend3 (fresh_smp (fr3 _ _ con2) rfl) o3.2.1 o3.2.2 ty3 sy2 c4 (by rw [← h4]; exact o4.1)
  rw [← h4] at st4
  obtain ⟨u4, N2, v4, hh4, i4, id4, us4, th4, ss4, ty4, fo4, nu4, k⟩ := k (p3 _ _ _ _ con3 nu3 fo3)
  obtain ⟨⟨um4, rep4, r4⟩, -, hsend4⟩ := st4 _ _ hh4
  have hsend4 := hsend4 _ rfl
  obtain ⟨y4, sy4⟩ := sends_smp4 hsend4
  have may4 := may4 N2
  -- Alice is done
  obtain ⟨x4, con4, may5, st5⟩ := smp_step4 hC.good hG hg hhA2 allow.1 tags.2 tags.1 may4 hsend4 (fresh_smp (fr4 _ _ con3) rfl) o4.2.1 o4.2.2 ty4 sx3 c5 (by rw [← h5]; exact o5)
  rw [← h5] at st5
  obtain ⟨M3, hh5, i5, id5, us5, th5, ss5⟩ := k (p4 _ _ _ _ con4 nu4 fo4)
  obtain ⟨⟨um5, rep5, r5⟩, hsent5, -⟩ := st5 _ _ hh5
  obtain ⟨hsent5, sx5⟩ := hsent5 rfl
  have may5 := may5 M3
  rw [i2] at rep2
  cases rep2
  rw [i3] at rep3
  cases rep3
  rw [m1, mu, mt] at i4 i5
  intro X Y
  refine ⟨r1, r2, r3, fun hxy => ?_, fun hxy => ?_, hsent5, ?_, x4, M3, y4, N2, sx5, sy4, by rw [ss5, m1], by rw [ss4, n1],
    by rw [us5, mu], by rw [th5, mt], by rw [us4, nu], by rw [th4, nt], id5, ?_, id4, ?_⟩
  · rw [i4, SMP4.outcome, if_pos hxy] at rep4
    cases rep4
    rw [i5, SMP4.outcome, if_pos hxy] at rep5
    cases rep5
    exact ⟨r4, r5⟩
  · rw [i4, SMP4.outcome, if_neg hxy] at rep4
    cases rep4
    rw [i5, SMP4.outcome, if_neg hxy] at rep5
    cases rep5
    exact ⟨r4, r5⟩
  · rw [sx5]; exact may5
  · rw [i5, SMP4.outcome]; split <;> simp
  · rw [i4, SMP4.outcome]; split <;> simp

/-- C83 (OTRv4): the clients can run the SMP after a conversation. -/
theorem C83_talk4 (E : Env) (hC : GoodCurve E.curve) (hG : GoodGroup E.dh3) (hg : FitsMpi E.dh3.p) (A B : Account)
    (allow : AllowsV4 A ∧ AllowsV4 B) (tags : 0x100 ≤ A.tag ∧ 0x100 ≤ B.tag) (hA hB : List Ev) (sA sB sA' sB' : Session) (ts : List Turn)
    (hhA : Hist E A hA sA) (hhB : Hist E B hB sB) (fA fB ssid : Bytes) (hcon : Acquainted4 E A B fA fB ssid sA sB)
    (ht : Talk E A B sA sB ts sA' sB') : Acquainted4 E A B fA fB ssid sA' sB' := by
  obtain ⟨⟨x, m, y, n, hx, hy, o1, o2, o3, o4, calm⟩, x0, m0, y0, n0, sx, sy, ms, ns, rest⟩ := hcon
  rw [hx] at sx
  cases sx
  rw [hy] at sy
  cases sy
  have key : ((Calm4 E ⟨x, y, [], []⟩ → Connected4 E A B sA' sB') ∧ (Calm4 E ⟨y, x, [], []⟩ → Connected4 E B A sB' sA')) ∧
      (∃ x', stateOf sA' B.tag = .encrypted4 x' m) ∧ ∃ y', stateOf sB' A.tag = .encrypted4 y' n := by
    rcases calm with calm | calm
    · obtain ⟨_, h2, _, h3, h4⟩ := talk4 E hC hG hg A B allow tags hA hB sA sB sA' sB' ts hhA hhB
        ⟨x, m, y, n, ssid, hx, hy, by rw [ssid_state hx, ms], by rw [ssid_state hy, ns], o1, o2, o3, o4, calm⟩ ht
      refine ⟨⟨fun _ => h2, fun calm => ?_⟩, h3 _ _ hx, h4 _ _ hy⟩
      exact (talk4 E hC hG hg B A ⟨allow.2, allow.1⟩ ⟨tags.2, tags.1⟩ hB hA sB sA sB' sA' _ hhB hhA
        ⟨y, n, x, m, ssid, hy, hx, by rw [ssid_state hy, ns], by rw [ssid_state hx, ms], o3, o4, o1, o2, calm⟩ (talk_swap ht)).2.1
    · obtain ⟨_, h2, _, h3, h4⟩ := talk4 E hC hG hg B A ⟨allow.2, allow.1⟩ ⟨tags.2, tags.1⟩ hB hA sB sA sB' sA' _ hhB hhA
        ⟨y, n, x, m, ssid, hy, hx, by rw [ssid_state hy, ns], by rw [ssid_state hx, ms], o3, o4, o1, o2, calm⟩ (talk_swap ht)
      refine ⟨⟨fun calm => ?_, fun _ => h2⟩, h4 _ _ hx, h3 _ _ hy⟩
      exact (talk4 E hC hG hg A B allow tags hA hB sA sB sA' sB' ts hhA hhB
        ⟨x, m, y, n, ssid, hx, hy, by rw [ssid_state hx, ms], by rw [ssid_state hy, ns], o1, o2, o3, o4, calm⟩ ht).2.1
  obtain ⟨hcon, ⟨x', hx'⟩, y', hy'⟩ := key
  refine ⟨?_, x', m, y', n, hx', hy', ms, ns, rest⟩
  rcases calm with calm | calm
  · obtain ⟨x1, m1, y1, n1, _, h1, h2, _, _, p1, p2, p3, p4, calm'⟩ := hcon.1 calm
    exact ⟨x1, m1, y1, n1, h1, h2, p1, p2, p3, p4, .inl calm'⟩
  · obtain ⟨y1, n1, x1, m1, _, h1, h2, _, _, p1, p2, p3, p4, calm'⟩ := hcon.2 calm
    exact ⟨x1, m1, y1, n1, h2, h1, p3, p4, p1, p2, .inr calm'⟩

/-! ## Examples -/

namespace ToySmp3
open ToySession

/-- The two toy clients get acquainted. -/
theorem acquainted : ∃ ssid, Acquainted3 smpEnv acA acB ToyAke.alice.pk ToyAke.bob.pk ssid h4.after g5.after := by
  obtain ⟨⟨t1, t2, t3, t4, _⟩, m3, m4, hp, _⟩ := runSmpTalk
  have hf := runTalk3.2.2.2.1
  obtain ⟨r1, mC, tC, ⟨_, s1⟩, h⟩ := exchange3 smpEnv acA acB _ _ [] [] .new .new .new .new
    (callB 1000 1) (callA 1000 2) (callB 1000 3) (callA 1000 4) (callB 1000 5) toy_meetSmp (readySmpB 3) (readySmpA 4) query3 [.v3] hf
    hp (by simp) (by simp) ⟨(fun _ _ _ h => (by cases h)), (fun _ _ h => (by cases h))⟩ (fun _ _ h => (by cases h)) (fun _ _ h => (by cases h))
  have e1 : (Op.receive query3).run smpEnv acB (callB 1000 1) .new = g1 := by unfold g1; rfl
  simp only [e1] at s1 h
  rw [t1] at s1
  cases s1
  have e2 : (Op.receive (msg g1)).run smpEnv acA (callA 1000 2) .new = ToySession.h2 := by unfold ToySession.h2; rfl
  simp only [e2] at h
  obtain ⟨r2, mK, tK, ⟨_, s2⟩, h⟩ := h
  rw [t2] at s2
  cases s2
  have e3 : (Op.receive (msg ToySession.h2)).run smpEnv acB (callB 1000 3) g1.after = g3 := by unfold g3; rfl
  simp only [e3] at h
  obtain ⟨r3, mR, tR, p3, ⟨_, s3⟩, h⟩ := h
  rw [t3] at s3
  cases s3
  have e4 : (Op.receive (msg g3)).run smpEnv acA (callA 1000 4) ToySession.h2.after = h4 := by unfold h4; rfl
  simp only [e4] at h
  rw [p3] at m3
  obtain ⟨r4, mS, tS, p4, ⟨_, s4⟩, h⟩ := h (anyNonzero_iff.mp m3)
  rw [t4] at s4
  cases s4
  have e5 : (Op.receive (msg h4)).run smpEnv acB (callB 1000 5) g3.after = g5 := by unfold g5; rfl
  simp only [e5] at h
  rw [p4] at m4
  obtain ⟨_, _, _, ssid, h, _⟩ := h (anyNonzero_iff.mp m4)
  exact ⟨ssid, h⟩

/-- The hypotheses of `C83_smp3` hold of the toy clients, which then stay acquainted. -/
example : ∃ ssid, Acquainted3 smpEnv acA acB ToyAke.alice.pk ToyAke.bob.pk ssid h10.after g9.after := by
  obtain ⟨ssid, hacq⟩ := acquainted
  obtain ⟨_, hhA⟩ := hist_h4
  obtain ⟨_, hhB⟩ := hist_g5
  obtain ⟨⟨_, _, _, _, t6, t7, t8, t9⟩, _, _, _, ⟨l6, l7, l8, l9⟩, p1, p2, p3, p4⟩ := runSmpTalk
  obtain ⟨⟨_, _, _, _, _, r6, r7, r8, r9, r10, _⟩, _⟩ := runSmp3
  have hS : SmpGroup smpEnv.dh := by
    rw [smpEnv_dh, show tinyEnv.dh = smallEnv.dh by simp only [tinyEnv, smallEnv]]
    exact toy_smpGroup
  exact ⟨ssid, (C83_smp3 smpEnv toy_meetSmp.curve hS toy_meetSmp.group hS.fits acA acB toy_meetSmp.allow toy_meetSmp.tags _ _ _ _ hhA hhB _ _ ssid hacq
    [1] [1] [113] (by decide) (callA 1000 1) (callB 1000 4) (callA 1000 1) (callB 1000 1) (callA 1000 12) (msg h6) (msg g7) (msg h8) (msg g9)
    h6 g7 h8 g9 h10 (by unfold h6; rfl) (by unfold g7; rfl) (by unfold h8; rfl) (by unfold g9; rfl) (by unfold h10; rfl)
    ⟨by rw [r6]; simp, t6, l6⟩ ⟨by rw [r7]; simp, t7, l7⟩ ⟨by rw [r8]; simp, t8, l8⟩ ⟨by rw [r9]; simp, t9, l9⟩ (by rw [r10]; simp)
    (by simp only [callA, Call.smp, Option.map_some]) (by simp only [callB, Call.smp, Option.map_some]) (by simp only [callB, Call.smp])
    (textOk_numbers p1) (textOk_numbers p2) (textOk_numbers p3) (textOk_numbers p4)).2.2.2.2.2.2⟩

end ToySmp3

open ToySession in
/-- The hypotheses of `C83_talk4` hold of the toy clients that meet and talk in `C74`; they get acquainted, and stay so. -/
example : ∃ fA fB ssid, Acquainted4 tinyEnv acA acB fA fB ssid l4.after k3.after ∧ Acquainted4 tinyEnv acA acB fA fB ssid l10.after k11.after := by
  obtain ⟨fA, fB, ssid, h⟩ := ToyTalk.acquainted.2
  obtain ⟨_, hA⟩ := ToyTalk.histA
  obtain ⟨_, hB⟩ := ToyTalk.histB
  obtain ⟨_, ht, _⟩ := ToyTalk.talk
  exact ⟨fA, fB, ssid, h, C83_talk4 tinyEnv toy_meet.curve (by constructor <;> decide) toy_meet.group acA acB toy_meet.allow toy_meet.tags _ _ _ _ _ _ _ hA hB
    fA fB ssid h ht⟩

end Otrr.Props
