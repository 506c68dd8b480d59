import Verif.Props.SessionExchange3
import Verif.Props.Replay
/-! C113: whether somebody on the network can make two clients use OTRv3 that both allow OTRv4. -/

namespace Otrr
open Otrr.Spec

namespace Instance
variable {E : Env} {A : Account} {c : Call}

/-- An OTRv4 session does not become an OTRv3 session. -/
def Up (m : EncodedMessage) (i : Instance) (r : Res UserMessage) (i' : Instance) : Prop :=
  (∀ d, m.message = .data d → Decoded d) → r ≠ .panic → (∃ x smp, i.state = .encrypted4 x smp) → ∀ x smp, i'.state ≠ .encrypted3 x smp

theorem On.up {i i' : Instance} (h : On E i i') (h4 : ∃ x smp, i.state = .encrypted4 x smp) (x : Enc3) (smp : SMPContext) : i'.state ≠ .encrypted3 x smp := by
  intro h3
  obtain ⟨y, smp', l, h1, _⟩ := h.1.1 x smp h3
  obtain ⟨z, smp'', h2⟩ := h4
  rw [h2] at h1
  cases h1

theorem Up.lives {m : EncodedMessage} {f : InstM UserMessage} (h : Lives (On E) f) (w : World Instance) :
    Up m w.st (f w).1 (f w).2.st := fun _ hp h4 => (h w hp).up h4

theorem secure_up {k : UInt32} {mat : AKEMaterial} {w w' : World Instance} {u : Unit} (h4 : ∃ x smp, w.st.state = .encrypted4 x smp)
    (h : secure E A c k mat w = (.ok u, w')) : False := by
  obtain ⟨x, smp, h4⟩ := h4
  simp only [secure, onState] at h
  rw [h4] at h
  simp [PState.secure3] at h

theorem process_up (m : EncodedMessage) (w : World Instance) : Up m w.st (process E A c m w).1 (process E A c m w).2.st := by
  have hR := on_pre (E := E)
  unfold process
  rw [StM.bind_run]
  simp only [StM.gets]
  obtain ⟨v, snd, rcv, msg⟩ := m
  have hv : ∀ r : Res UserMessage, Up ⟨v, snd, rcv, msg⟩ w.st (StM.lift r w).1 (StM.lift r w).2.st :=
    fun r => Up.lives (.lift hR r) w
  cases v with
  | v3 =>
    cases msg with
    | dhCommit msg => exact Up.lives (.bind hR (lives_same (same_onAke _)) fun _ => .bind hR lives_inject fun _ => .pure hR _) w
    | dhKey msg => exact Up.lives (.bind hR (lives_same (same_onAke _)) fun _ => .bind hR lives_inject fun _ => .pure hR _) w
    | revealSignature msg =>
      intro _ hp h4
      simp only [StM.bind_run] at hp ⊢
      have hs := same_onAke (AKE.handleRevealSignature E c.keypair msg) w
      generalize hm : onAke (AKE.handleRevealSignature E c.keypair msg) w = x at hp hs ⊢
      obtain ⟨r, w1⟩ := x
      cases r with
      | panic => exact absurd rfl hp
      | err e => exact (hs.on (E := E)).up h4
      | ok p =>
        obtain ⟨mat, r⟩ := p
        simp only at hp ⊢
        cases hx : secure E A c snd mat w1 with
        | mk r2 w2 =>
          rw [hx] at hp
          cases r2 with
          | panic => exact absurd rfl hp
          | err e =>
            rcases secure_inv hx with ⟨h1, -⟩ | ⟨h1, -⟩ <;> cases h1
          | ok u => exact (secure_up (by rw [show w1.st.state = w.st.state from hs.1]; exact h4) hx).elim
    | signature msg =>
      intro _ hp h4
      simp only [StM.bind_run] at hp ⊢
      have hs := same_onAke (AKE.handleSignature E msg) w
      generalize hm : onAke (AKE.handleSignature E msg) w = x at hp hs ⊢
      obtain ⟨r, w1⟩ := x
      cases r with
      | panic => exact absurd rfl hp
      | err e => exact (hs.on (E := E)).up h4
      | ok mat =>
        simp only at hp ⊢
        cases hx : secure E A c snd mat w1 with
        | mk r2 w2 =>
          rw [hx] at hp
          cases r2 with
          | panic => exact absurd rfl hp
          | err e =>
            rcases secure_inv hx with ⟨h1, -⟩ | ⟨h1, -⟩ <;> cases h1
          | ok u => exact (secure_up (by rw [show w1.st.state = w.st.state from hs.1]; exact h4) hx).elim
    | data msg =>
      intro hd
      exact Up.lives (m := ⟨.v3, snd, rcv, .data msg⟩) (.bind hR (.attempt (lives_onState fun _ => PState.goes_handle3 (hd msg rfl))) fun _ => lives_handleDecrypted) w hd
    | _ => exact hv _
  | v4 =>
    cases msg with
    | identity msg => exact Up.lives (.bind hR (lives_same (same_onDake _)) fun _ => .bind hR lives_inject fun _ => .pure hR _) w
    | authR msg =>
      intro _ hp h4
      simp only [StM.bind_run] at hp ⊢
      have hs := same_onDake (DAKE.handleAuthR E (c.dake A) msg (c.rnd.sub 0) c.now) w
      cases hx : onDake (DAKE.handleAuthR E (c.dake A) msg (c.rnd.sub 0) c.now) w with
      | mk r w1 =>
      rw [hx] at hp hs
      cases r with
      | panic => exact absurd rfl hp
      | err e => exact (hs.on (E := E)).up h4
      | ok p =>
        obtain ⟨mat, r⟩ := p
        simp only at hp ⊢
        have hst := inject_spec A c (c.rnd.sub 3) .v4 snd r w1
        have hne := (StM.NoErr.inject A c (c.rnd.sub 3) .v4 snd r) w1
        generalize inject A c (c.rnd.sub 3) .v4 snd r w1 = y at hp hst hne ⊢
        obtain ⟨r3, w3⟩ := y
        cases r3 with
        | panic => exact absurd rfl hp
        | err e => exact absurd rfl (hne e)
        | ok u => exact fun x smp => nofun
    | authI msg =>
      intro _ hp h4
      simp only [StM.bind_run] at hp ⊢
      have hs := same_onDake (DAKE.handleAuthI E (c.dake A) msg c.now) w
      cases hx : onDake (DAKE.handleAuthI E (c.dake A) msg c.now) w with
      | mk r w1 =>
      rw [hx] at hp hs
      cases r with
      | panic => exact absurd rfl hp
      | err e => exact (hs.on (E := E)).up h4
      | ok mat => exact fun x smp => nofun
    | data4 msg =>
      exact Up.lives (.bind hR (.lift hR _) fun _ => .bind hR (.attempt (lives_onState fun _ => PState.goes_handle4)) fun _ => lives_handleDecrypted) w
    | _ => exact hv _
  | none => cases msg <;> exact hv _
  | unsupported v => cases msg <;> exact hv _

theorem handle_up {f : InstM Unit} (hf : Keeps SameState f) (m : EncodedMessage) (w : World Instance) :
    Up m w.st ((do f; Instance.handle E A c m : InstM UserMessage) w).1 ((do f; Instance.handle E A c m : InstM UserMessage) w).2.st := by
  generalize hx : (do f; Instance.handle E A c m : InstM UserMessage) w = x
  have hs := hf w
  rw [StM.bind_run] at hx
  cases hr : f w with
  | mk r w1 =>
    rw [hr] at hx hs
    cases r with
    | err e => rw [← hx]; exact fun _ _ => (hs.on (E := E)).up
    | panic => rw [← hx]; exact fun _ _ => (hs.on (E := E)).up
    | ok u =>
      simp only [Instance.handle, StM.bind_run] at hx
      have hs2 := same_clearAssembler m.version w1
      cases hr2 : clearAssembler m.version w1 with
      | mk r2 w2 =>
        rw [hr2] at hx hs2
        have hq := same_pre.trans hs hs2
        cases r2 with
        | err e => rw [← hx]; exact fun _ _ => (hq.on (E := E)).up
        | panic => rw [← hx]; exact fun _ _ => (hq.on (E := E)).up
        | ok u2 =>
          simp only at hx
          rw [← hx]
          have := process_up (E := E) (A := A) (c := c) m w2
          unfold Up at this ⊢
          have h1 : w2.st.state = w.st.state := hq.1
          rw [h1] at this
          exact this

end Instance

namespace Session
open Instance
variable {E : Env} {A : Account} {c : Call}

theorem run_up {s : Session} (hi : Inv E s) {op : Op} (hp : (op.run E A c s).result ≠ .panic) (k : UInt32)
    (h4 : ∃ x smp, (s.inst k).state = .encrypted4 x smp) : ∀ x smp, ((op.run E A c s).after.inst k).state ≠ .encrypted3 x smp := by
  by_cases h : ∃ p, op = .receive p
  · obtain ⟨p, rfl⟩ := h
    rw [Op.run] at hp ⊢
    rw [perform_after, perform_result] at *
    rcases toldBy_receive (T := Up) (fun h m w => handle_up (E := E) (A := A) (c := c) (same_adopt h) m w) (fun m i i1 r i' h ht => by
      unfold Up at ht ⊢
      rw [h.1] at ht
      exact ht) (w := ⟨s, []⟩) hi p with ⟨h1, _⟩ | ⟨m, hd, _, _, _, h1, h2⟩
    · exact ((h1.each k).on (E := E)).up h4
    · by_cases hk : k = m.sender
      · subst hk
        have hp' : (receive E A c p ⟨s, []⟩).1 ≠ .panic := fun h => hp (by rw [h]; rfl)
        have ⟨t, ht⟩ : ∃ text, parse E text = .ok (.encoded m) := by
          rcases hd with ⟨_, h⟩ | ⟨_, _, _, content, _, _, _, _, _, _, _, h⟩ <;> exact ⟨_, h⟩
        exact h2 (fun d hd => parse_decoded ht hd) hp' h4
      · exact ((h1 k hk).on (E := E)).up h4
  · exact ((lives_run (fun p hp => h ⟨p, hp⟩) hp).each k).up h4

end Session
end Otrr

namespace Otrr.Props
open Otrr Otrr.Spec Otrr.Session ToySession ToyReplay

/-- C113, partially: an OTRv4 session is not replaced by an OTRv3 session, whatever the client receives: in all histories, if a client has an OTRv4
session with a peer and later an OTRv3 session, then its session with the peer was not encrypted in between. -/
theorem C113_partial (E : Env) (A : Account) (h h' : List Ev) (s s' : Session) (hh : Hist E A h s) (hl : Later E A s h' s') (k : UInt32)
    (h4 : (stateOf s k).status = .encrypted ∧ (stateOf s k).version = .v4)
    (h3 : (stateOf s' k).status = .encrypted ∧ (stateOf s' k).version = .v3) :
    ∃ h₁ h₂ s₁, h' = h₁ ++ h₂ ∧ Later E A s h₁ s₁ ∧ (stateOf s₁ k).status ≠ .encrypted := by
  suffices key : ∀ {h' s'}, Later E A s h' s' → (∃ x smp, stateOf s' k = .encrypted4 x smp) ∨
      ∃ h₁ h₂ s₁, h' = h₁ ++ h₂ ∧ Later E A s h₁ s₁ ∧ (stateOf s₁ k).status ≠ .encrypted by
    rcases key hl with ⟨x, smp, hx⟩ | hx
    · rw [hx] at h3
      exact absurd h3.2 nofun
    · exact hx
  intro h' s' hl
  induction hl with
  | here =>
    left
    revert h4
    cases stateOf s k with
    | encrypted4 x smp => exact fun _ => ⟨x, smp, rfl⟩
    | _ => intro h; simp [PState.status, PState.version] at h
  | @step h1 s1 op c e hl he hp ih =>
    subst he
    rcases ih with hx | ⟨h₁, h₂, s₁, rfl, h2, h5⟩
    · by_cases hs : (stateOf (op.run E A c s1).after k).status = .encrypted
      · left
        have := run_up (hist_inv (later_hist hh hl)) hp k (by rw [← stateOf_inst]; exact hx)
        rw [← stateOf_inst] at this
        revert this hs
        cases stateOf (op.run E A c s1).after k with
        | encrypted4 x smp => exact fun _ _ => ⟨x, smp, rfl⟩
        | encrypted3 x smp => exact fun _ h => absurd rfl (h x smp)
        | _ => exact fun h => absurd h nofun
      · exact .inr ⟨_, [], _, by rw [List.append_nil], .step hl rfl hp, hs⟩
    · exact .inr ⟨h₁, _, s₁, by rw [List.append_assoc], h2, h5⟩

/-! Bob ends his OTRv4 session with Alice, then the two go through the exchange of OTRv3. -/
@[irreducible] def r1 : Effect := (Op.receive query3).run tinyEnv acB (callB 1000 1) d8.after
@[irreducible] def s2 : Effect := (Op.receive (msg r1)).run tinyEnv acA (callA 1000 2) c9.after
@[irreducible] def r3 : Effect := (Op.receive (msg s2)).run tinyEnv acB (callB 1000 3) r1.after
@[irreducible] def s4 : Effect := (Op.receive (msg r3)).run tinyEnv acA (callA 1000 4) s2.after
@[irreducible] def r5 : Effect := (Op.receive (msg s4)).run tinyEnv acB (callB 1000 5) r3.after

theorem runDown : d8.result ≠ .panic ∧ r1.result = .ok (.user .none) ∧ r3.result = .ok (.user .none) ∧ r5.result = .ok (.user (.sessionStarted 0x100)) ∧
    ((stateOf d3.after 0x100).status = .encrypted ∧ (stateOf d3.after 0x100).version = .v4) ∧
    (stateOf r5.after 0x100).status = .encrypted ∧ (stateOf r5.after 0x100).version = .v3 := by decide +kernel

example : ∃ h h', Hist tinyEnv acB h d3.after ∧ Later tinyEnv acB d3.after h' r5.after ∧
    ((stateOf d3.after 0x100).status = .encrypted ∧ (stateOf d3.after 0x100).version = .v4) ∧
    (stateOf r5.after 0x100).status = .encrypted ∧ (stateOf r5.after 0x100).version = .v3 := by
  obtain ⟨h, hh⟩ := hist_d3
  obtain ⟨p8, p1, p3, p5, h4, h3⟩ := runDown
  have hl := Later.step (.step (.step (.step (.here (E := tinyEnv) (A := acB)) (op := .close 0x100) (c := callB 1000 8) (e := d8) (by unfold d8; rfl) p8)
    (op := .receive query3) (c := callB 1000 1) (e := r1) (by unfold r1; rfl) (by rw [p1]; nofun))
    (op := .receive (msg s2)) (c := callB 1000 3) (e := r3) (by unfold r3; rfl) (by rw [p3]; nofun))
    (op := .receive (msg s4)) (c := callB 1000 5) (e := r5) (by unfold r5; rfl) (by rw [p5]; nofun)
  exact ⟨h, _, hh, hl, h4, h3⟩

/-- C113 is false of the code, for every two clients that allow both versions, in all their histories: if Bob gets a query that offers OTRv3 only, from
whoever it is, and the messages that the two then inject are delivered, both have an OTRv3 session.  Nothing in the exchange tells them which
versions the other allows. -/
theorem C113_violated (E : Env) (A B : Account) (keyA keyB : DSAKeypair) (hA hB : List Ev) (sA sB : Session) (hhA : Hist E A hA sA)
    (hhB : Hist E B hB sB) (cB1 cA2 cB3 cA4 cB5 : Call) (meet : CanMeet3 E A B keyA keyB cA2 cB1) (ready3 : Ready3 E keyB cB3)
    (ready4 : Ready3 E keyA cA4) (_allow4 : AllowsV4 A ∧ AllowsV4 B) (q : Bytes) (hf : matchFragment q = false) (hq : parse E q = .ok (.query [.v3]))
    (idleA : NotAwaitingReveal (akeOf sA B.tag) ∧ ∀ kp r, akeOf sA B.tag ≠ .awaitingDHKey kp r)
    (nA4 : NotV4 sA B.tag) (nB4 : NotV4 sB A.tag) :
    let e1 := (Op.receive q).run E B cB1 sB
    ∃ mC tC, Sends e1 ⟨.v3, B.tag, 0, .dhCommit mC⟩ tC ∧
    let e2 := (Op.receive tC).run E A cA2 sA
    ∃ mK tK, Sends e2 ⟨.v3, A.tag, B.tag, .dhKey mK⟩ tK ∧
    let e3 := (Op.receive tK).run E B cB3 e1.after
    ∃ mR tR, Sends e3 ⟨.v3, B.tag, A.tag, .revealSignature mR⟩ tR ∧
    ((∃ b ∈ mR.sigMac, b ≠ 0) →
    let e4 := (Op.receive tR).run E A cA4 e2.after
    e4.result = .ok (.user (.sessionStarted B.tag)) ∧ ∃ mS tS, Sends e4 ⟨.v3, A.tag, B.tag, .signature mS⟩ tS ∧
    ((∃ b ∈ mS.sigMac, b ≠ 0) →
    let e5 := (Op.receive tS).run E B cB5 e3.after
    e5.result = .ok (.user (.sessionStarted A.tag)) ∧
    (stateOf e4.after B.tag).version = .v3 ∧ (stateOf e4.after B.tag).status = .encrypted ∧
    (stateOf e5.after A.tag).version = .v3 ∧ (stateOf e5.after A.tag).status = .encrypted)) := by
  obtain ⟨_, mC, tC, s1, _, mK, tK, s2, _, mR, tR, s3, h⟩ := C82_exchange3 E A B keyA keyB hA hB sA sB hhA hhB cB1 cA2 cB3 cA4 cB5 meet ready3
    ready4 q [.v3] hf hq (by simp) (by simp) idleA nA4 nB4
  refine ⟨mC, tC, s1, mK, tK, s2, mR, tR, s3, fun g => ?_⟩
  obtain ⟨r4, mS, tS, s4, h⟩ := h g
  refine ⟨r4, mS, tS, s4, fun g' => ?_⟩
  obtain ⟨r5, _, ⟨xA, mA, xB, mB, ssid, c1, c2, _⟩, _⟩ := h g'
  refine ⟨r5, ?_, ?_, ?_, ?_⟩
  · rw [c1]; rfl
  · rw [c1]; rfl
  · rw [c2]; rfl
  · rw [c2]; rfl

/-- The hypotheses are met, and the run is one in which nothing but this query was not sent by one of the clients. -/
theorem C113_violated_session : ∃ (E : Env) (A B : Account) (q : Bytes) (h h' : List Ev) (s s' : Session),
    Hist E A h s ∧ Hist E B h' s' ∧ AllowsV4 A ∧ AllowsV4 B ∧ OnlyDelivers q h h' ∧ OnlyDelivers q h' h ∧
    (stateOf s B.tag).version = .v3 ∧ (stateOf s B.tag).status = .encrypted ∧
    (stateOf s' A.tag).version = .v3 ∧ (stateOf s' A.tag).status = .encrypted := by
  obtain ⟨_, ⟨xA, mA, xB, mB, ssid, c1, c2, _⟩⟩ : True ∧ Connected3 tinyEnv acA acB (Either3 tinyEnv) a4.after b5.after := ⟨trivial, ToyTalk3.connected⟩
  obtain ⟨⟨r1, r2, r3, r4, r5, t1, t2, t3, t4⟩, _⟩ := runBegan
  refine ⟨tinyEnv, acA, acB, query3, _, _, _, _, hist_alice3, hist_bob3, by unfold AllowsV4 PolicyBit acA; decide, by unfold AllowsV4 PolicyBit acB; decide, ?_, ?_, ?_, ?_, ?_, ?_⟩
  · simp [OnlyDelivers, ev, t1, t3]
  · simp [OnlyDelivers, ev, t2, t4]
  · rw [c1]; rfl
  · rw [c1]; rfl
  · rw [c2]; rfl
  · rw [c2]; rfl

example : CanMeet3 tinyEnv acA acB ToyAke.alice ToyAke.bob (callA 1000 2) (callB 1000 1) := toy_meet3

end Otrr.Props
