import Verif.Lemmas.ReplayToy
import Verif.Props.ForwardSecrecy
/-! C110, C111, and the defects of C31, C35, C103 and C104 that come with them: a client that began a key exchange keeps what it drew for it, and
whoever delivers the answer of the peer again restarts the session. -/

namespace Otrr.Props
open Otrr Otrr.Spec Otrr.Session ToySession ToyReplay

/-! ## C110 -/

/-- C110, OTRv4, for the client that answered, whatever the primitives are: the Auth-I message of a completed exchange is accepted again, and gives
the same keys.  For every message sent before the second delivery and every message sent after it, both before anything was received, equal
positions mean that the same key encrypts both. -/
theorem C110_violated_otr4_general (E : Env) (host : DAKEHost) (i : AuthIMessage) (now now' : Nat) (s s' s'' : DAKEState)
    (mat : MixedKeyMaterial) (hi : DAKE.handleAuthI E host i now s = (.ok mat, s')) (hk : KeptOn E s' s'') :
    ∃ mat', DAKE.handleAuthI E host i now' s'' = (.ok mat', s'') ∧
      ∀ our their us x us' x', Log4 E ⟨our, their, mat.ratchet⟩ us x → OnlySent us →
        Log4 E ⟨our, their, mat'.ratchet⟩ us' x' → OnlySent us' →
        ∀ m plain m' plain', Use4.sent m plain ∈ us → Use4.sent m' plain' ∈ us' → m.j = m'.j →
          ∃ key, m.encrypted = chachaCrypt E key plain ∧ m'.encrypted = chachaCrypt E key plain' := by
  have hr := C35_replay E host i now now' s s' mat hi
  have hs := transact_ok.mp hi
  split at hs
  · rename_i st
    simp only [DAKE.acceptAuthI, Res.bind_eq_ok, exUnit, Res.pure_def, Res.ok.injEq, Prod.mk.injEq] at hs
    obtain ⟨_, ⟨_, _, _, _, _, first, _, rfl⟩, rfl, rfl⟩ := hs
    have := hk.same
    subst this
    refine ⟨_, hr, ?_⟩
    intro our their us x us' x' hl ho hl' ho' m plain m' plain' hm hm' hj
    have h1 := (sends_first rfl rfl hl ho).2.2 m plain hm
    have h2 := (sends_first rfl rfl hl' ho').2.2 m' plain' hm'
    rw [← hj] at h2
    exact ⟨_, h1, h2⟩
  · cases hs

/-- C110: two texts encrypted with the same key: their sum is seen on the network. -/
theorem C110_sum (E : Env) (key a b : Bytes) : xorText (chachaCrypt E key a) (chachaCrypt E key b) = xorText a b := by
  simp only [xorText, chachaCrypt, xorStream]
  apply List.ext_getElem
  · simp
  · intro n h1 h2
    simp only [List.getElem_zipWith, List.getElem_mapIdx]
    rw [UInt8.xor_comm (b[n]'_), ← UInt8.xor_assoc, UInt8.xor_assoc (a[n]'_), UInt8.xor_self, UInt8.xor_zero]

def ev (op : Op) (c : Call) (e : Effect) : Ev := ⟨op, c, e.result, e.sent⟩

theorem hist_alice : Hist tinyEnv acA [ev (.receive (msg k1)) (meetA 5000 8) l2, ev (.receive (msg k3)) (meetA 5000 4) l4] l4.after :=
  .step (.step .new (by unfold l2; rfl) (by rw [runAnswered.1.2.1]; nofun)) (by unfold l4; rfl) (by rw [runAnswered.1.2.2.2.1]; nofun)

theorem hist_bob : Hist tinyEnv acB [ev (.receive query4) (meetB 5000 3) k1, ev (.receive (msg l2)) (meetB 5000 3) k3] k3.after :=
  .step (.step .new (by unfold k1; rfl) (by rw [runAnswered.1.1]; nofun)) (by unfold k3; rfl) (by rw [runAnswered.1.2.2.1]; nofun)

theorem hist_alice3 : Hist tinyEnv acA [ev (.receive (msg b1)) (callA 1000 2) a2, ev (.receive (msg b3)) (callA 1000 4) a4] a4.after :=
  .step (.step .new (by unfold a2; rfl) (by rw [runBegan.1.2.1]; nofun)) (by unfold a4; rfl) (by rw [runBegan.1.2.2.2.1]; nofun)

theorem hist_bob3 : Hist tinyEnv acB [ev (.receive query3) (callB 1000 1) b1, ev (.receive (msg a2)) (callB 1000 3) b3,
    ev (.receive (msg a4)) (callB 1000 5) b5] b5.after :=
  .step (.step (.step .new (by unfold b1; rfl) (by rw [runBegan.1.1]; nofun)) (by unfold b3; rfl) (by rw [runBegan.1.2.2.1]; nofun))
    (by unfold b5; rfl) (by rw [runBegan.1.2.2.2.2.1]; nofun)

/-- C110 is false of the code, OTRv4: Alice gets nothing but messages of Bob, one of them twice, and sends two texts whose sum anybody sees. -/
theorem C110_violated_otr4 : ∃ (E : Env) (A B : Account) (q : Bytes) (h h' : List Ev) (s s' : Session) (k : UInt32) (a b : Bytes),
    Hist E A h s ∧ Hist E B h' s' ∧ OnlyDelivers q h h' ∧ OnlyDelivers q h' h ∧ a ≠ b ∧ TellsSum E h k a b := by
  obtain ⟨⟨r1, r2, r3, r4, t1, t2, t3⟩, ⟨u1, u2, u3, u4, u5, u6⟩, _⟩ := runAnswered
  have hs := Hist.step (Hist.step (Hist.step hist_alice (op := .send 0x102 [104, 105]) (c := meetA 5000 5) (e := l5) (by unfold l5; rfl)
      (by rw [u1]; nofun)) (op := .receive (msg k3)) (c := meetA 5000 6) (e := l6) (by unfold l6; rfl) (by rw [u3]; nofun))
    (op := .send 0x102 [98, 121]) (c := meetA 5000 7) (e := l7s) (by unfold l7s; rfl) (by rw [u4]; nofun)
  obtain ⟨x, x', e1, e2, e3⟩ := tells_ok u6
  refine ⟨tinyEnv, acA, acB, query4, _, _, _, _, 0x102, [104, 105], [98, 121], hs, hist_bob, ?_, ?_, by decide, ?_⟩
  · simp [OnlyDelivers, ev, t1, t3]
  · simp [OnlyDelivers, ev, t2]
  · refine ⟨[ev (.receive (msg k1)) (meetA 5000 8) l2, ev (.receive (msg k3)) (meetA 5000 4) l4], [ev (.receive (msg k3)) (meetA 5000 6) l6], [],
      meetA 5000 5, meetA 5000 7, text l5, text l7s, x, x', ?_, e1, e2, e3⟩
    simp [ev, u1, u2, u4, u5]

/-- C110 is false of the code, OTRv3: Bob, who began, gets nothing but messages of Alice, two of them twice. -/
theorem C110_violated_otr3 : ∃ (E : Env) (A B : Account) (q : Bytes) (h h' : List Ev) (s s' : Session) (k : UInt32) (a b : Bytes),
    Hist E B h s ∧ Hist E A h' s' ∧ OnlyDelivers q h h' ∧ OnlyDelivers q h' h ∧ a ≠ b ∧ TellsSum E h k a b := by
  obtain ⟨⟨r1, r2, r3, r4, r5, t1, t2, t3, t4⟩, ⟨u1, u2, u3, u4, u5, u6, u7⟩, _⟩ := runBegan
  have hs := Hist.step (Hist.step (Hist.step (Hist.step hist_bob3 (op := .send 0x100 [104, 105]) (c := callB 1000 6) (e := s6) (by unfold s6; rfl)
      (by rw [u1]; nofun)) (op := .receive (msg a2)) (c := callB 1000 7) (e := s7) (by unfold s7; rfl) (by rw [u3]; nofun))
      (op := .receive (msg a4)) (c := callB 1000 8) (e := s8) (by unfold s8; rfl) (by rw [u4]; nofun))
    (op := .send 0x100 [98, 121]) (c := callB 1000 9) (e := s9) (by unfold s9; rfl) (by rw [u5]; nofun)
  obtain ⟨x, x', e1, e2, e3⟩ := tells_ok u7
  refine ⟨tinyEnv, acA, acB, query3, _, _, _, _, 0x100, [104, 105], [98, 121], hs, hist_alice3, ?_, ?_, by decide, ?_⟩
  · simp [OnlyDelivers, ev, t2, t4]
  · simp [OnlyDelivers, ev, t1, t3]
  · refine ⟨[ev (.receive query3) (callB 1000 1) b1, ev (.receive (msg a2)) (callB 1000 3) b3, ev (.receive (msg a4)) (callB 1000 5) b5],
      [ev (.receive (msg a2)) (callB 1000 7) s7, ev (.receive (msg a4)) (callB 1000 8) s8], [],
      callB 1000 6, callB 1000 9, text s6, text s9, x, x', ?_, e1, e2, e3⟩
    simp [ev, u1, u2, u5, u6]

/-! ## C111 -/

/-- C111 is false of the code, OTRv4, for the client that answered: Bob sends a text once, Alice reports it twice. -/
theorem C111_violated_answered : ∃ (E : Env) (A B : Account) (q : Bytes) (h h' : List Ev) (s s' : Session) (k k' : UInt32) (t : Bytes),
    Hist E A h s ∧ Hist E B h' s' ∧ OnlyDelivers q h h' ∧ OnlyDelivers q h' h ∧ timesSent k t h' = 1 ∧ timesReported k' t h = 2 := by
  obtain ⟨⟨r1, r2, r3, r4, t1, t2, t3⟩, _, ⟨u1, u2, u3, u4⟩, _⟩ := runAnswered
  have hs := Hist.step (Hist.step (Hist.step hist_alice (op := .receive (text k6h)) (c := meetA 5000 7) (e := l7h) (by unfold l7h; rfl)
      (by rw [u2]; nofun)) (op := .receive (msg k3)) (c := meetA 5000 8) (e := l8h) (by unfold l8h; rfl) (by rw [u3]; nofun))
    (op := .receive (text k6h)) (c := meetA 5000 9) (e := l9h) (by unfold l9h; rfl) (by rw [u4]; nofun)
  have hb := Hist.step hist_bob (op := .send 0x100 [104, 105]) (c := meetB 5000 6) (e := k6h) (by unfold k6h; rfl) (by rw [u1]; nofun)
  refine ⟨tinyEnv, acA, acB, query4, _, _, _, _, 0x100, 0x102, [104, 105], hs, hb, ?_, ?_, ?_, ?_⟩
  · simp [OnlyDelivers, ev, t1, t3, u1]
  · simp [OnlyDelivers, ev, t2]
  · simp [timesSent, ev]
  · simp [timesReported, ev, r2, r4, u2, u3, u4]

/-- C111 is false of the code, OTRv4, for the client that began: Alice sends a text once, Bob reports it twice. -/
theorem C111_violated_began : ∃ (E : Env) (A B : Account) (q : Bytes) (h h' : List Ev) (s s' : Session) (k k' : UInt32) (t : Bytes),
    Hist E B h s ∧ Hist E A h' s' ∧ OnlyDelivers q h h' ∧ OnlyDelivers q h' h ∧ timesSent k t h' = 1 ∧ timesReported k' t h = 2 := by
  obtain ⟨⟨r1, r2, r3, r4, t1, t2, t3⟩, ⟨v1, _⟩, _, ⟨u1, _, u2, u3⟩, _⟩ := runAnswered
  have hs := Hist.step (Hist.step (Hist.step hist_bob (op := .receive (text l5)) (c := meetB 5000 6) (e := k7) (by unfold k7; rfl)
      (by rw [u1]; nofun)) (op := .receive (msg l2)) (c := meetB 5000 7) (e := k8) (by unfold k8; rfl) (by rw [u2]; nofun))
    (op := .receive (text l5)) (c := meetB 5000 8) (e := ToyReplay.k9) (by unfold ToyReplay.k9; rfl) (by rw [u3]; nofun)
  have hb := Hist.step hist_alice (op := .send 0x102 [104, 105]) (c := meetA 5000 5) (e := l5) (by unfold l5; rfl) (by rw [v1]; nofun)
  refine ⟨tinyEnv, acA, acB, query4, _, _, _, _, 0x102, 0x100, [104, 105], hs, hb, ?_, ?_, ?_, ?_⟩
  · simp [OnlyDelivers, ev, t2, v1]
  · simp [OnlyDelivers, ev, t1, t3]
  · simp [timesSent, ev]
  · simp [timesReported, ev, r1, r3, u1, u2, u3]

/-- C111 is false of the code, OTRv3: Alice sends a text once, Bob, who began, reports it twice. -/
theorem C111_violated_otr3 : ∃ (E : Env) (A B : Account) (q : Bytes) (h h' : List Ev) (s s' : Session) (k k' : UInt32) (t : Bytes),
    Hist E B h s ∧ Hist E A h' s' ∧ OnlyDelivers q h h' ∧ OnlyDelivers q h' h ∧ timesSent k t h' = 1 ∧ timesReported k' t h = 2 := by
  obtain ⟨⟨r1, r2, r3, r4, r5, t1, t2, t3, t4⟩, _, ⟨v1, u1, u2, u3, u4⟩, _⟩ := runBegan
  have hs := Hist.step (Hist.step (Hist.step (Hist.step hist_bob3 (op := .receive (text y6)) (c := callB 1000 7) (e := z7) (by unfold z7; rfl)
      (by rw [u1]; nofun)) (op := .receive (msg a2)) (c := callB 1000 8) (e := z8r) (by unfold z8r; rfl) (by rw [u2]; nofun))
      (op := .receive (msg a4)) (c := callB 1000 9) (e := z9r) (by unfold z9r; rfl) (by rw [u3]; nofun))
    (op := .receive (text y6)) (c := callB 1000 10) (e := z10r) (by unfold z10r; rfl) (by rw [u4]; nofun)
  have hb := Hist.step hist_alice3 (op := .send 0x102 [104, 105]) (c := callA 1000 6) (e := y6) (by unfold y6; rfl) (by rw [v1]; nofun)
  refine ⟨tinyEnv, acA, acB, query3, _, _, _, _, 0x102, 0x100, [104, 105], hs, hb, ?_, ?_, ?_, ?_⟩
  · simp [OnlyDelivers, ev, t2, t4, v1]
  · simp [OnlyDelivers, ev, t1, t3]
  · simp [timesSent, ev]
  · simp [timesReported, ev, r1, r3, r5, u1, u2, u3, u4]

/-! ## C31, C103 and C104 -/

/-- C31 is false of the session: a client that awaits a Signature message, and would start the session with it, gets a D-H Key message that the peer
did not send for this exchange; the client answers it, and refuses the Signature message then. -/
theorem C31_violated : ∃ (E : Env) (B : Account) (h : List Ev) (s : Session) (p q : Bytes) (c c' : Call) (k : UInt32),
    Hist E B h s ∧ ((Op.receive p).run E B c s).result = .ok (.user (.sessionStarted k)) ∧
    (∃ m, parse E q = .ok (.encoded ⟨.v3, k, B.tag, .dhKey m⟩)) ∧
    ((Op.receive q).run E B c' s).result = .ok (.user .none) ∧
    ((Op.receive p).run E B c ((Op.receive q).run E B c' s).after).result.isOk = false ∧
    ((Op.receive p).run E B c ((Op.receive q).run E B c' s).after).after.status k = some .plaintext := by
  obtain ⟨⟨r1, r2, r3, r4, r5, t1, t2, t3, t4⟩, _, _, ⟨_, u2, u3, u4, _, u5⟩, _⟩ := runBegan
  have hs := Hist.step (Hist.step .new (op := .receive query3) (c := callB 1000 1) (e := b1) (by unfold b1; rfl) (by rw [r1]; nofun))
    (op := .receive (msg a2)) (c := callB 1000 3) (e := b3) (by unfold b3; rfl) (by rw [r3]; nofun)
  have e4 : (Op.receive (msg x2)).run tinyEnv acB (callB 1000 4) b3.after = b4x := by unfold b4x; rfl
  have e5 : (Op.receive (msg a4)).run tinyEnv acB (callB 1000 5) b4x.after = b5x := by unfold b5x; rfl
  have e6 : (Op.receive (msg a4)).run tinyEnv acB (callB 1000 5) b3.after = b5 := by unfold b5; rfl
  refine ⟨tinyEnv, acB, _, _, msg a4, msg x2, callB 1000 5, callB 1000 4, 0x100, hs, ?_, isKey_ok u2, ?_, ?_, ?_⟩
  · rw [e6]; exact r5
  · rw [e4]; exact u3
  · rw [e4, e5]; exact u4
  · rw [e4, e5]; exact u5

/-- C104 is false of the session: Bob began an exchange, sent a text, and ended the session.  What Bob drew for the exchange is still there, and with
it and what was recorded the text can be read. -/
theorem C104_violated : ∃ (E : Env) (B : Account) (h : List Ev) (s : Session) (k : UInt32) (t wire : Bytes) (c : Call)
    (kp : DH.Keypair) (r : Bytes) (g : DHKeyMessage) (d : DataMessage),
    Hist E B h s ∧ s.status k = some .plaintext ∧ ⟨.send k t, c, .ok (.texts [wire]), []⟩ ∈ h ∧
    (∃ e ∈ h, ∃ p, e.op = .receive p ∧ parse E p = .ok (.encoded ⟨.v3, k, B.tag, .dhKey g⟩)) ∧
    parse E wire = .ok (.encoded ⟨.v3, B.tag, k, .data d⟩) ∧ akeOf s 0 = .awaitingDHKey kp r ∧ openedBy E kp g.gy d = some t := by
  obtain ⟨_, ⟨u1, u2, _⟩, _, _, v1, v2, v3⟩ := runBegan
  have hs := Hist.step (Hist.step hist_bob3 (op := .send 0x100 [104, 105]) (c := callB 1000 6) (e := s6) (by unfold s6; rfl)
    (by rw [u1]; nofun)) (op := .close 0x100) (c := callB 1000 7) (e := s7c) (by unfold s7c; rfl) (by rw [v1]; nofun)
  obtain ⟨kp, r, g, d, w1, w2, w3, w4⟩ := thief3_ok v3
  refine ⟨tinyEnv, acB, _, _, 0x100, [104, 105], text s6, callB 1000 6, kp, r, g, d, hs, v2, ?_, ?_, w3, w1, w4⟩
  · simp [ev, u1, u2]
  · exact ⟨ev (.receive (msg a2)) (callB 1000 3) b3, by simp, _, rfl, w2⟩

/-- C103 is false of the session for the client that began as well: Bob began an exchange, read a text, and ended the session.  What Bob drew for the
exchange is still there, and with it and what was recorded the text can be read. -/
theorem C103_violated_began : ∃ (E : Env) (B : Account) (h : List Ev) (s : Session) (k : UInt32) (t wire : Bytes) (c : Call)
    (st : AwaitingAuthR) (r : AuthRMessage) (d : DataMessage4),
    Hist E B h s ∧ s.status k = some .plaintext ∧ ⟨.receive wire, c, .ok (.user (.confidential k t [])), []⟩ ∈ h ∧
    (∃ e ∈ h, ∃ p, e.op = .receive p ∧ parse E p = .ok (.encoded ⟨.v4, k, B.tag, .authR r⟩)) ∧
    parse E wire = .ok (.encoded ⟨.v4, k, B.tag, .data4 d⟩) ∧ dakeOf s 0 = .awaitingAuthR st ∧ openedByOffer E st r d = some t := by
  obtain ⟨_, _, _, ⟨u1, k7_sent, _⟩, v1, v2, v3⟩ := runAnswered
  have hs := Hist.step (Hist.step hist_bob (op := .receive (text l5)) (c := meetB 5000 6) (e := k7) (by unfold k7; rfl)
    (by rw [u1]; nofun)) (op := .close 0x100) (c := meetB 5000 8) (e := k8c) (by unfold k8c; rfl) (by rw [v1]; nofun)
  obtain ⟨st, r, d, w1, w2, w3, w4⟩ := thief4_ok v3
  refine ⟨tinyEnv, acB, _, _, 0x100, [104, 105], text l5, meetB 5000 6, st, r, d, hs, v2, ?_, ?_, w3, w1, w4⟩
  · simp [ev, u1, k7_sent]
  · exact ⟨ev (.receive (msg l2)) (meetB 5000 3) k3, by simp, _, rfl, w2⟩

end Otrr.Props
