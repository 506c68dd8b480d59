import Verif.Spec.Transcript
import Verif.Props.Dake
import Verif.Props.Covered
import Verif.Lemmas.DakeToy
/-! C115: a signature of the OTRv4 key exchange is about the whole exchange. -/

namespace Otrr.Props
open Otrr Otrr.Spec Otrr.DAKE

theorem wPayload_inj {E : Env} (hf : GoodField E.curve) {p p' : ClientProfilePayload} (h : WfPayload E p) (h' : WfPayload E p')
    (e : wPayload p = wPayload p') : p = p' := by
  have h1 := readPayload_w hf h []
  rw [e, readPayload_w hf h' []] at h1
  simp only [Res.ok.injEq, Prod.mk.injEq, and_true] at h1
  exact h1.symm

theorem wData_last {q q' : Bytes} (h : wData q = wData q') (hq : q.length < 2 ^ 32) (hq' : q'.length < 2 ^ 32) : q = q' :=
  (SMP4.wData_inj (b := []) (b' := []) (by rw [h]) hq hq').1

theorem details_inj {c : Curve} (hf : GoodField c) {t1 t2 t1' t2' : UInt32} {P Q P' Q' : Point} {a b a' b' : Nat} {n m n' m' : Bytes}
    (hP : OnCurve c P) (hQ : OnCurve c Q) (hP' : OnCurve c P') (hQ' : OnCurve c Q') (ha : FitsMpi a) (hb : FitsMpi b) (ha' : FitsMpi a')
    (hb' : FitsMpi b') (hn : n.length < 2 ^ 32) (hm : m.length < 2 ^ 32) (hn' : n'.length < 2 ^ 32) (hm' : m'.length < 2 ^ 32)
    (h : wU32 t1 ++ wU32 t2 ++ P.encode ++ wMpi a ++ Q.encode ++ wMpi b ++ wData n ++ wData m =
      wU32 t1' ++ wU32 t2' ++ P'.encode ++ wMpi a' ++ Q'.encode ++ wMpi b' ++ wData n' ++ wData m') :
    P = P' ∧ a = a' ∧ Q = Q' ∧ b = b' ∧ n = n' ∧ m = m' := by
  simp only [List.append_assoc] at h
  have f1 := (wU32_app h).2
  have f2 := (wU32_app f1).2
  obtain ⟨e3, f3⟩ := wPoint_app hf hP hP' f2
  obtain ⟨e4, f4⟩ := wMpi_app ha ha' f3
  obtain ⟨e5, f5⟩ := wPoint_app hf hQ hQ' f4
  obtain ⟨e6, f6⟩ := wMpi_app hb hb' f5
  obtain ⟨e7, f7⟩ := SMP4.wData_inj f6 hn hn'
  exact ⟨e3, e4, e5, e6, e7, wData_last f7 hm hm'⟩

theorem body_inj {c : Curve} (hf : GoodField c) {y x y' x' : Point} {b a b' a' : Nat} {t : UInt8} {h1 h2 h3 h1' h2' h3' : Bytes}
    (l1 : h1.length = 64) (l2 : h2.length = 64) (l1' : h1'.length = 64) (l2' : h2'.length = 64)
    (hy : OnCurve c y) (hx : OnCurve c x) (hy' : OnCurve c y') (hx' : OnCurve c x') (hb : FitsMpi b) (ha : FitsMpi a) (hb' : FitsMpi b')
    (ha' : FitsMpi a') (h : [t] ++ h1 ++ h2 ++ y.encode ++ x.encode ++ wMpi b ++ wMpi a ++ h3 =
      [t] ++ h1' ++ h2' ++ y'.encode ++ x'.encode ++ wMpi b' ++ wMpi a' ++ h3') :
    h1 = h1' ∧ h2 = h2' ∧ y = y' ∧ x = x' ∧ b = b' ∧ a = a' ∧ h3 = h3' := by
  simp only [List.append_assoc, List.cons_append, List.nil_append, List.cons.injEq, true_and] at h
  obtain ⟨e1, f1⟩ := List.append_inj h (by rw [l1, l1'])
  obtain ⟨e2, f2⟩ := List.append_inj f1 (by rw [l2, l2'])
  obtain ⟨e3, f3⟩ := wPoint_app hf hy hy' f2
  obtain ⟨e4, f4⟩ := wPoint_app hf hx hx' f3
  obtain ⟨e5, f5⟩ := wMpi_app hb hb' f4
  obtain ⟨e6, f6⟩ := wMpi_app ha ha' f5
  exact ⟨e1, e2, e3, e4, e5, e6, f6⟩

/-- C115: what is signed in an Auth-R message determines the exchange: the profiles, keys and names on both sides; unless there are two byte strings with the
same hash, that are named. -/
theorem C115_transcriptR (E : Env) (hf : GoodField E.curve) (e e' : Exchange) (s : Sound E e) (s' : Sound E e') (h : e.transcriptR E = e'.transcriptR E) :
    e = e' ∨ Collides E 0x05 (wPayload e.bobPayload) (wPayload e'.bobPayload) ∨ Collides E 0x06 (wPayload e.alicePayload) (wPayload e'.alicePayload) ∨
      Collides E 0x07 e.detailsR e'.detailsR := by
  obtain ⟨h1, h2, h3, h4, h5, h6, h7⟩ := body_inj hf (kdf_length ..) (kdf_length ..) (kdf_length ..) (kdf_length ..) s.points.1 s.points.2.1 s'.points.1
    s'.points.2.1 s.sizes.1 s.sizes.2.1 s'.sizes.1 s'.sizes.2.1 h
  by_cases g1 : wPayload e.bobPayload = wPayload e'.bobPayload
  · by_cases g2 : wPayload e.alicePayload = wPayload e'.alicePayload
    · by_cases g3 : e.detailsR = e'.detailsR
      · left
        have p1 := wPayload_inj hf s.payloads.1 s'.payloads.1 g1
        have p2 := wPayload_inj hf s.payloads.2 s'.payloads.2 g2
        have q1 := s.accepted.1
        rw [p1, s'.accepted.1, Res.ok.injEq] at q1
        have q2 := s.accepted.2
        rw [p2, s'.accepted.2, Res.ok.injEq] at q2
        obtain ⟨d1, d2, d3, d4, d5, d6⟩ := details_inj hf s.points.2.2.2 s.points.2.2.1 s'.points.2.2.2 s'.points.2.2.1 s.sizes.2.2.2 s.sizes.2.2.1
          s'.sizes.2.2.2 s'.sizes.2.2.1 s.names.2 s.names.1 s'.names.2 s'.names.1 g3
        cases e
        cases e'
        simp_all
      · exact .inr (.inr (.inr ⟨g3, h7⟩))
    · exact .inr (.inr (.inl ⟨g2, h2⟩))
  · exact .inr (.inl ⟨g1, h1⟩)

/-- C115: the same for an Auth-I message. -/
theorem C115_transcriptI (E : Env) (hf : GoodField E.curve) (e e' : Exchange) (s : Sound E e) (s' : Sound E e') (h : e.transcriptI E = e'.transcriptI E) :
    e = e' ∨ Collides E 0x08 (wPayload e.bobPayload) (wPayload e'.bobPayload) ∨ Collides E 0x09 (wPayload e.alicePayload) (wPayload e'.alicePayload) ∨
      Collides E 0x0a e.detailsI e'.detailsI := by
  obtain ⟨h1, h2, h3, h4, h5, h6, h7⟩ := body_inj hf (kdf_length ..) (kdf_length ..) (kdf_length ..) (kdf_length ..) s.points.1 s.points.2.1 s'.points.1
    s'.points.2.1 s.sizes.1 s.sizes.2.1 s'.sizes.1 s'.sizes.2.1 h
  by_cases g1 : wPayload e.bobPayload = wPayload e'.bobPayload
  · by_cases g2 : wPayload e.alicePayload = wPayload e'.alicePayload
    · by_cases g3 : e.detailsI = e'.detailsI
      · left
        have p1 := wPayload_inj hf s.payloads.1 s'.payloads.1 g1
        have p2 := wPayload_inj hf s.payloads.2 s'.payloads.2 g2
        have q1 := s.accepted.1
        rw [p1, s'.accepted.1, Res.ok.injEq] at q1
        have q2 := s.accepted.2
        rw [p2, s'.accepted.2, Res.ok.injEq] at q2
        obtain ⟨d1, d2, d3, d4, d5, d6⟩ := details_inj hf s.points.2.2.1 s.points.2.2.2 s'.points.2.2.1 s'.points.2.2.2 s.sizes.2.2.1 s.sizes.2.2.2
          s'.sizes.2.2.1 s'.sizes.2.2.2 s.names.1 s.names.2 s'.names.1 s'.names.2 g3
        cases e
        cases e'
        simp_all
      · exact .inr (.inr (.inr ⟨g3, h7⟩))
    · exact .inr (.inr (.inl ⟨g2, h2⟩))
  · exact .inr (.inl ⟨g1, h1⟩)

/-- A ring signature verifies for one text only, unless two byte strings, that are named, have the same challenge. -/
theorem ring_same {E : Env} {s : RingSignature} {A1 A2 A3 B1 B2 B3 : Point} {m m' : Bytes} (h : RingVerifies E s A1 A2 A3 m)
    (h' : RingVerifies E s B1 B2 B3 m') : m = m' ∨ SameChallenge E (ringInput E s A1 A2 A3 m) (ringInput E s B1 B2 B3 m') := by
  by_cases g : ringInput E s A1 A2 A3 m = ringInput E s B1 B2 B3 m'
  · left
    have l : ∀ a b : Bytes, a.length = b.length → ∀ x y, a ++ wData x = b ++ wData y → x = y := by
      intro a b hl x y he
      have := (List.append_inj he hl).2
      unfold wData at this
      exact (List.append_inj this (by simp [wU32])).2
    exact l _ _ (by simp [Point.encode_length]) _ _ g
  · exact .inr ⟨g, h.trans h'.symm⟩

/-- C115: the signature of an Auth-R message does not verify as the one of an Auth-I message. -/
theorem C115_distinct (E : Env) (e e' : Exchange) (s : RingSignature) (A1 A2 A3 B1 B2 B3 : Point) (h : RingVerifies E s A1 A2 A3 (e.transcriptR E))
    (h' : RingVerifies E s B1 B2 B3 (e'.transcriptI E)) :
    SameChallenge E (ringInput E s A1 A2 A3 (e.transcriptR E)) (ringInput E s B1 B2 B3 (e'.transcriptI E)) := by
  rcases ring_same h h' with h | h
  · simp [Exchange.transcriptR, Exchange.transcriptI] at h
  · exact h

theorem sound_of {E : Env} {i : IdentityMessage} {r : AuthRMessage} {bob alice : ClientProfile} {a b : Bytes} (wi : WfMessage E (.identity i))
    (wr : WfMessage E (.authR r)) (hb : i.profile.validate E = .ok bob) (ha : r.profile.validate E = .ok alice)
    (n : a.length < 2 ^ 32 ∧ b.length < 2 ^ 32) : Sound E (exchangeOf i r bob alice a b) where
  payloads := ⟨wi.1, wr.1⟩
  accepted := ⟨hb, ha⟩
  points := ⟨wi.2.1, wr.2.1, wi.2.2.2.1, wr.2.2.2.2.1⟩
  sizes := ⟨wi.2.2.1, wr.2.2.1, wi.2.2.2.2, wr.2.2.2.2.2⟩
  names := n

/-- C115, for clients that began: if two clients, or one client in two exchanges, with any histories, accept Auth-R messages with the same signature, then
the exchanges are the same: the same Identity message, the same Auth-R message, the same names; unless there are two byte strings, that are named, with
the same hash. -/
theorem C115_authR (E : Env) (hf : GoodField E.curve) (h h' : List DakeEv) (s s₁ s' s₁' : DAKEState) (hl : DakeLife E h s) (hl' : DakeLife E h' s')
    (host host' : DAKEHost) (m m' : AuthRMessage) (rnd rnd' : Rand) (now now' : Nat) (mat mat' : MixedKeyMaterial) (out out' : EncodedMessageType)
    (hs : handleAuthR E host m rnd now s = (.ok (mat, out), s₁)) (hs' : handleAuthR E host' m' rnd' now' s' = (.ok (mat', out'), s₁'))
    (same : m.sigma = m'.sigma) (wf : WfMessage E (.authR m)) (wf' : WfMessage E (.authR m')) (wfs : ∀ i, .began i ∈ h → WfMessage E (.identity i))
    (wfs' : ∀ i, .began i ∈ h' → WfMessage E (.identity i)) (n : ShortNames host) (n' : ShortNames host') :
    ∃ i i' bob bob' alice alice', .began i ∈ h ∧ .began i' ∈ h' ∧ i.profile.validate E = .ok bob ∧ i'.profile.validate E = .ok bob' ∧
      m.profile.validate E = .ok alice ∧ m'.profile.validate E = .ok alice' ∧
      let e := exchangeOf i m bob alice host.account host.contact
      let e' := exchangeOf i' m' bob' alice' host'.account host'.contact
      ((i = i' ∧ m = m' ∧ host.account = host'.account ∧ host.contact = host'.contact) ∨
        SameChallenge E (ringInput E m.sigma bob.forgingKey alice.identityKey i.y (e.transcriptR E))
          (ringInput E m.sigma bob'.forgingKey alice'.identityKey i'.y (e'.transcriptR E)) ∨
        Collides E 0x05 (wPayload i.profile) (wPayload i'.profile) ∨ Collides E 0x06 (wPayload m.profile) (wPayload m'.profile) ∨
        Collides E 0x07 e.detailsR e'.detailsR) := by
  obtain ⟨i, bob, alice, h1, v1, v2, _, _, _, _, h2, _⟩ := C34_authR E h s s₁ hl host m rnd now mat out hs
  obtain ⟨i', bob', alice', h1', v1', v2', _, _, _, _, h2', _⟩ := C34_authR E h' s' s₁' hl' host' m' rnd' now' mat' out' hs'
  refine ⟨i, i', bob, bob', alice, alice', h1, h1', v1, v1', v2, v2', ?_⟩
  have g := sound_of (wfs i h1) wf v1 v2 n
  have g' := sound_of (wfs' i' h1') wf' v1' v2' n'
  rw [← same] at h2'
  rcases ring_same h2 h2' with h3 | h3
  · rcases C115_transcriptR E hf _ _ g g' h3 with h4 | h4
    · left
      obtain ⟨i1, i2, i3, i4, i5⟩ := i
      obtain ⟨j1, j2, j3, j4, j5⟩ := i'
      obtain ⟨m1, m2, m3, m4, m5, m6⟩ := m
      obtain ⟨n1, n2, n3, n4, n5, n6⟩ := m'
      simp only [exchangeOf, Exchange.mk.injEq] at h4
      simp_all
    · exact .inr (.inr h4)
  · exact .inr (.inl h3)

/-- C115, for clients that answered. -/
theorem C115_authI (E : Env) (hf : GoodField E.curve) (h h' : List DakeEv) (s s₁ s' s₁' : DAKEState) (hl : DakeLife E h s) (hl' : DakeLife E h' s')
    (host host' : DAKEHost) (m : AuthIMessage) (now now' : Nat) (mat mat' : MixedKeyMaterial)
    (hs : handleAuthI E host m now s = (.ok mat, s₁)) (hs' : handleAuthI E host' m now' s' = (.ok mat', s₁'))
    (wf : ∀ i r, .identity i (.ok (.authR r)) ∈ h → WfMessage E (.identity i) ∧ WfMessage E (.authR r))
    (wf' : ∀ i r, .identity i (.ok (.authR r)) ∈ h' → WfMessage E (.identity i) ∧ WfMessage E (.authR r)) (n : ShortNames host) (n' : ShortNames host') :
    ∃ i i' r r' bob bob' alice alice', .identity i (.ok (.authR r)) ∈ h ∧ .identity i' (.ok (.authR r')) ∈ h' ∧
      i.profile.validate E = .ok bob ∧ i'.profile.validate E = .ok bob' ∧ r.profile.validate E = .ok alice ∧ r'.profile.validate E = .ok alice' ∧
      let e := exchangeOf i r bob alice host.contact host.account
      let e' := exchangeOf i' r' bob' alice' host'.contact host'.account
      ((i = i' ∧ { r with sigma := r'.sigma } = r' ∧ host.account = host'.account ∧ host.contact = host'.contact) ∨
        SameChallenge E (ringInput E m.sigma bob.identityKey alice.forgingKey r.x (e.transcriptI E))
          (ringInput E m.sigma bob'.identityKey alice'.forgingKey r'.x (e'.transcriptI E)) ∨
        Collides E 0x08 (wPayload i.profile) (wPayload i'.profile) ∨ Collides E 0x09 (wPayload r.profile) (wPayload r'.profile) ∨
        Collides E 0x0a e.detailsI e'.detailsI) := by
  obtain ⟨i, r, bob, alice, h1, v1, v2, _, _, _, _, h2, _⟩ := C34_authI E h s s₁ hl host m now mat hs
  obtain ⟨i', r', bob', alice', h1', v1', v2', _, _, _, _, h2', _⟩ := C34_authI E h' s' s₁' hl' host' m now' mat' hs'
  refine ⟨i, i', r, r', bob, bob', alice, alice', h1, h1', v1, v1', v2, v2', ?_⟩
  have g := sound_of (wf i r h1).1 (wf i r h1).2 v1 v2 n.symm
  have g' := sound_of (wf' i' r' h1').1 (wf' i' r' h1').2 v1' v2' n'.symm
  rcases ring_same h2 h2' with h3 | h3
  · rcases C115_transcriptI E hf _ _ g g' h3 with h4 | h4
    · left
      obtain ⟨i1, i2, i3, i4, i5⟩ := i
      obtain ⟨j1, j2, j3, j4, j5⟩ := i'
      obtain ⟨m1, m2, m3, m4, m5, m6⟩ := r
      obtain ⟨n1, n2, n3, n4, n5, n6⟩ := r'
      simp only [exchangeOf, Exchange.mk.injEq] at h4
      simp_all
    · exact .inr (.inr h4)
  · exact .inr (.inl h3)

theorem toy_wfs : WfMessage toyEnv (.identity toyIdentity) ∧ WfMessage toyEnv (.authR toyAuthR) := by
  have h1 : toyIdentity.profile = payloadB ∧ toyAuthR.profile = payloadA := by unfold toyIdentity toyAuthR; exact ⟨rfl, rfl⟩
  have h2 : OnCurve toyEnv.curve toyIdentity.y ∧ OnCurve toyEnv.curve toyIdentity.ecdh0 ∧ OnCurve toyEnv.curve toyAuthR.x ∧
      OnCurve toyEnv.curve toyAuthR.ecdh0 := by unfold toyIdentity toyAuthR; exact ⟨by constructor <;> decide, by constructor <;> decide, by constructor <;> decide, by constructor <;> decide⟩
  have h3 : toyIdentity.b < 256 ∧ toyIdentity.dh0 < 256 ∧ toyAuthR.a < 256 ∧ toyAuthR.dh0 < 256 := by decide +kernel
  have h4 : WfRing toyEnv.curve toyAuthR.sigma := by unfold WfRing; decide +kernel
  have hs : ∀ n, n < 256 → FitsMpi n := fun n h => ⟨1, by decide, by omega⟩
  exact ⟨⟨h1.1 ▸ partyB.wf, h2.1, hs _ h3.1, h2.2.1, hs _ h3.2.1⟩, ⟨h1.2 ▸ partyA.wf, h2.2.2.1, hs _ h3.2.2.1, h4, h2.2.2.2, hs _ h3.2.2.2⟩⟩

/-- The hypotheses are met: by an exchange of which both clients accept the signatures. -/
example : (∃ mat out, handleAuthR toyEnv hostB toyAuthR (smallRand 1) 5 toyBegan = (.ok (mat, out), .initial)) ∧
    DakeLife toyEnv [.began toyIdentity] toyBegan ∧ WfMessage toyEnv (.authR toyAuthR) ∧
    (∀ i, DakeEv.began i ∈ [.began toyIdentity] → WfMessage toyEnv (.identity i)) ∧ ShortNames hostB := by
  obtain ⟨mat, h⟩ := toy3
  exact ⟨⟨mat, _, h⟩, toy_bob_life, toy_wfs.2, by simpa using toy_wfs.1, by unfold hostB ShortNames; decide⟩

example : (∃ mat, handleAuthI toyEnv hostA toyAuthI 6 toyAnswer = (.ok mat, toyAnswer)) ∧
    DakeLife toyEnv [.identity toyIdentity (.ok (.authR toyAuthR))] toyAnswer ∧
    (∀ i r, DakeEv.identity i (.ok (.authR r)) ∈ [.identity toyIdentity (.ok (.authR toyAuthR))] →
      WfMessage toyEnv (.identity i) ∧ WfMessage toyEnv (.authR r)) ∧ ShortNames hostA := by
  refine ⟨toy4, toy_alice_life, ?_, by unfold hostA ShortNames; decide⟩
  intro i r h
  simp at h
  exact h.1 ▸ h.2 ▸ toy_wfs

end Otrr.Props
