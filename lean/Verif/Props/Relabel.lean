import Verif.Props.Covered
import Verif.Lemmas.RelabelToy
/-! C114: whether the tag that a session or a text is reported with is the tag of the peer. -/

namespace Otrr.Props
open Otrr Otrr.Spec Otrr.Session ToySession ToyRelabel

/-- C114, partially, for texts: if a client reports a text with the tag `k`, and the message has the authenticator of a message `m₀` that somebody
computed with the key `key₀`, then `k` is the sender that `m₀` names, and the client the receiver; unless two different byte strings, that are named, have the
same authenticator. -/
theorem C114_text_partial (E : Env) (hf : GoodField E.curve) (A : Account) (h : List Ev) (s : Session) (hh : Hist E A h s) (c : Call) (payload : Bytes)
    (k : UInt32) (content : Bytes) (tlvs : List TLV)
    (hr : ((Op.receive payload).run E A c s).result = .ok (.user (.confidential k content tlvs)))
    (t₀ : Bytes) (m₀ : EncodedMessage) (hp : parse E t₀ = .ok (.encoded m₀)) (b₀ key₀ : Bytes) (hc : covered m₀ = some b₀)
    (ha : authOf m₀ = some (codeWith E m₀ key₀ b₀)) :
    ∃ m b key, Delivers E A s payload m ∧ covered m = some b ∧ ChecksWith E c.now m (stateOf s k) key ∧
      (authOf m = authOf m₀ → m₀.sender = k ∧ m₀.receiver = A.tag ∨ b ≠ b₀ ∧ codeWith E m key b = codeWith E m₀ key₀ b₀) := by
  obtain ⟨t, m, b, key, h1, h2, h3, h4, h5, h6, h7⟩ := C112_checked E A h s hh c payload k content tlvs hr
  refine ⟨m, b, key, h1, h5, h6, fun he => ?_⟩
  by_cases hb : b = b₀
  · subst hb
    have hx := C112_covered E hf t t₀ m m₀ b h2 hp h5 hc
    have key : ∀ m : EncodedMessage, (bare m).sender = m.sender ∧ (bare m).receiver = m.receiver := by
      intro m
      unfold bare
      split <;> exact ⟨rfl, rfl⟩
    left
    rw [← h3, ← h4, ← (key m₀).1, ← (key m₀).2, ← hx]
    exact key m
  · refine .inr ⟨hb, ?_⟩
    rw [h7, ha, Option.some.injEq] at he
    exact he

/-- Bob reads a text of Alice in an OTRv3 session; the other message is the same one. -/
example : ∃ h t m b key, Hist tinyEnv acB h b5.after ∧ z7.result = .ok (.user (.confidential 0x100 [104, 105] [])) ∧
    parse tinyEnv t = .ok (.encoded m) ∧ covered m = some b ∧ authOf m = some (codeWith tinyEnv m key b) ∧ m.sender = 0x100 := by
  have hr := ToyReplay.runBegan.2.2.1.2.1
  obtain ⟨t, m, b, key, _, h2, hs, _, h3, _, h4⟩ := C112_checked tinyEnv acB _ _ hist_bob3 (callB 1000 7) (text y6) 0x100 [104, 105] []
    (by rw [← hr]; unfold z7; rfl)
  exact ⟨_, t, m, b, key, hist_bob3, hr, h2, h3, h4, hs⟩

/-- C114 is false of the code, OTRv3: the network exchanges, in the header of every message, Bob's tag and another one.  Then Alice reports a session with
that other tag, and the exchange is complete for both; she never knows of Bob's tag. The texts that Bob then sends are unreadable. -/
theorem C114_violated_otr3 : ∃ (E : Env) (A B : Account) (q : Bytes) (k : UInt32) (h h' : List Ev) (s s' : Session),
    Hist E A h s ∧ Hist E B h' s' ∧ k ≠ B.tag ∧ OnlyRelabels E q B.tag k h h' ∧ OnlyRelabels E q B.tag k h' h ∧
    (∃ e ∈ h, e.result = .ok (.user (.sessionStarted k))) ∧ (∃ e ∈ h', e.result = .ok (.user (.sessionStarted A.tag))) ∧
    s.status k = some .encrypted ∧ s'.status A.tag = some .encrypted ∧ s.status B.tag = none ∧
    (∃ e ∈ h, e.result = .err (.unreadableMessage k)) := by
  obtain ⟨⟨r1, r2, r3, r4, r5, r7⟩, ⟨t1, t2, t3, t4, t6⟩, ⟨w1, w2, w3, w4, w6⟩, s3, s1, s2⟩ := relabelled3
  have hA := Hist.step (.step (.step (.new (E := tinyEnv) (A := acA)) (op := .receive (swapped (msg vb1))) (c := callA 1000 2) (e := va2)
      (by unfold va2; rfl) (by rw [r2]; nofun))
    (op := .receive (swapped (msg vb3))) (c := callA 1000 4) (e := va4) (by unfold va4; rfl) (by rw [r4]; nofun))
    (op := .receive (swapped (text vb6))) (c := callA 1000 7) (e := va7) (by unfold va7; rfl) (by rw [r7]; nofun)
  have hB := Hist.step (.step (.step (.step (.new (E := tinyEnv) (A := acB)) (op := .receive query3) (c := callB 1000 1) (e := vb1)
      (by unfold vb1; rfl) (by rw [r1]; nofun))
    (op := .receive (swapped (msg va2))) (c := callB 1000 3) (e := vb3) (by unfold vb3; rfl) (by rw [r3]; nofun))
    (op := .receive (swapped (msg va4))) (c := callB 1000 5) (e := vb5) (by unfold vb5; rfl) (by rw [r5]; nofun))
    (op := .send 0x100 [104, 105]) (c := callB 1000 6) (e := vb6) (by unfold vb6; rfl) (by rw [t6]; nofun)
  refine ⟨tinyEnv, acA, acB, query3, other, _, _, _, _, hA, hB, by decide, ?_, ?_, ?_, ?_, s1, s2, ?_, ?_⟩
  · intro e he p hp
    simp only [List.nil_append, List.cons_append, List.mem_cons, List.not_mem_nil, or_false] at he
    rcases he with rfl | rfl | rfl <;> cases hp
    · exact .inr ⟨⟨.receive query3, callB 1000 1, vb1.result, vb1.sent⟩, by simp, msg vb1, .inl (by rw [t1]; simp), isSwapped_ok w1⟩
    · exact .inr ⟨⟨.receive (swapped (msg va2)), callB 1000 3, vb3.result, vb3.sent⟩, by simp, msg vb3, .inl (by rw [t3]; simp), isSwapped_ok w3⟩
    · exact .inr ⟨⟨.send 0x100 [104, 105], callB 1000 6, vb6.result, vb6.sent⟩, by simp, text vb6, .inr t6, isSwapped_ok w6⟩
  · intro e he p hp
    simp only [List.nil_append, List.cons_append, List.mem_cons, List.not_mem_nil, or_false] at he
    rcases he with rfl | rfl | rfl | rfl <;> cases hp
    · exact .inl rfl
    · exact .inr ⟨⟨.receive (swapped (msg vb1)), callA 1000 2, va2.result, va2.sent⟩, by simp, msg va2, .inl (by rw [t2]; simp), isSwapped_ok w2⟩
    · exact .inr ⟨⟨.receive (swapped (msg vb3)), callA 1000 4, va4.result, va4.sent⟩, by simp, msg va4, .inl (by rw [t4]; simp), isSwapped_ok w4⟩
  · exact ⟨⟨.receive (swapped (msg vb3)), callA 1000 4, va4.result, va4.sent⟩, by simp, r4⟩
  · exact ⟨⟨.receive (swapped (msg va4)), callB 1000 5, vb5.result, vb5.sent⟩, by simp, r5⟩
  · exact s3
  · exact ⟨⟨.receive (swapped (text vb6)), callA 1000 7, va7.result, va7.sent⟩, by simp, r7⟩

/-- C114 is false of the code, OTRv4: in the same way.  Alice accepts a profile in which Bob signed another tag than the one that she reports. -/
theorem C114_violated_otr4 : ∃ (E : Env) (A B : Account) (q : Bytes) (k : UInt32) (h h' : List Ev) (s s' : Session),
    Hist E A h s ∧ Hist E B h' s' ∧ k ≠ B.tag ∧ OnlyRelabels E q B.tag k h h' ∧ OnlyRelabels E q B.tag k h' h ∧
    (∃ e ∈ h, ∃ p, e.op = .receive p ∧ signedTag E p = some B.tag) ∧
    (∃ e ∈ h, e.result = .ok (.user (.sessionStarted k))) ∧ (∃ e ∈ h', e.result = .ok (.user (.sessionStarted A.tag))) ∧
    s.status k = some .encrypted ∧ s'.status A.tag = some .encrypted ∧ s.status B.tag = none ∧
    (∃ e ∈ h, e.result = .err (.unreadableMessage k)) := by
  obtain ⟨⟨r1, r2, r3, r4, r7⟩, ⟨t1, t2, t3, t6⟩, ⟨w1, w2, w3, w6⟩, s3, s1, s2, sg⟩ := relabelled4
  have hA := Hist.step (.step (.step (.new (E := tinyEnv) (A := acA)) (op := .receive (swapped (msg wb1))) (c := meetA 5000 8) (e := wa2)
      (by unfold wa2; rfl) (by rw [r2]; nofun))
    (op := .receive (swapped (msg wb3))) (c := meetA 5000 4) (e := wa4) (by unfold wa4; rfl) (by rw [r4]; nofun))
    (op := .receive (swapped (text wb6))) (c := meetA 5000 7) (e := wa7) (by unfold wa7; rfl) (by rw [r7]; nofun)
  have hB := Hist.step (.step (.step (.new (E := tinyEnv) (A := acB)) (op := .receive query4) (c := meetB 5000 3) (e := wb1)
      (by unfold wb1; rfl) (by rw [r1]; nofun))
    (op := .receive (swapped (msg wa2))) (c := meetB 5000 3) (e := wb3) (by unfold wb3; rfl) (by rw [r3]; nofun))
    (op := .send 0x100 [104, 105]) (c := meetB 5000 6) (e := wb6) (by unfold wb6; rfl) (by rw [t6]; nofun)
  refine ⟨tinyEnv, acA, acB, query4, other, _, _, _, _, hA, hB, by decide, ?_, ?_, ?_, ?_, ?_, s1, s2, s3, ?_⟩
  · intro e he p hp
    simp only [List.nil_append, List.cons_append, List.mem_cons, List.not_mem_nil, or_false] at he
    rcases he with rfl | rfl | rfl <;> cases hp
    · exact .inr ⟨⟨.receive query4, meetB 5000 3, wb1.result, wb1.sent⟩, by simp, msg wb1, .inl (by rw [t1]; simp), isSwapped_ok w1⟩
    · exact .inr ⟨⟨.receive (swapped (msg wa2)), meetB 5000 3, wb3.result, wb3.sent⟩, by simp, msg wb3, .inl (by rw [t3]; simp), isSwapped_ok w3⟩
    · exact .inr ⟨⟨.send 0x100 [104, 105], meetB 5000 6, wb6.result, wb6.sent⟩, by simp, text wb6, .inr t6, isSwapped_ok w6⟩
  · intro e he p hp
    simp only [List.nil_append, List.cons_append, List.mem_cons, List.not_mem_nil, or_false] at he
    rcases he with rfl | rfl | rfl <;> cases hp
    · exact .inl rfl
    · exact .inr ⟨⟨.receive (swapped (msg wb1)), meetA 5000 8, wa2.result, wa2.sent⟩, by simp, msg wa2, .inl (by rw [t2]; simp), isSwapped_ok w2⟩
  · exact ⟨⟨.receive (swapped (msg wb1)), meetA 5000 8, wa2.result, wa2.sent⟩, by simp, _, rfl, sg⟩
  · exact ⟨⟨.receive (swapped (msg wb3)), meetA 5000 4, wa4.result, wa4.sent⟩, by simp, r4⟩
  · exact ⟨⟨.receive (swapped (msg wa2)), meetB 5000 3, wb3.result, wb3.sent⟩, by simp, r3⟩
  · exact ⟨⟨.receive (swapped (text wb6)), meetA 5000 7, wa7.result, wa7.sent⟩, by simp, r7⟩

end Otrr.Props
