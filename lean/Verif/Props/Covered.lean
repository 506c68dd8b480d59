import Verif.Spec.Covered
import Verif.Props.SessionForged
import Verif.Lemmas.SessionPoints
import Verif.Lemmas.Smp4Run
import Verif.Lemmas.Toy
import Verif.Props.Replay
/-! C112: the authenticator of a data message covers the whole message, but for the old keys that it publishes. -/

namespace Otrr.Props
open Otrr Otrr.Spec Otrr.Session ToySession ToyReplay

theorem wU32_app {a b : UInt32} {x y : Bytes} (h : wU32 a ++ x = wU32 b ++ y) : a = b ∧ x = y := by
  have h1 := readU32_w a x
  rw [h, readU32_w] at h1
  simp only [Res.ok.injEq, Prod.mk.injEq] at h1
  exact ⟨h1.1.symm, h1.2.symm⟩

theorem wU8_app {a b : UInt8} {x y : Bytes} (h : wU8 a ++ x = wU8 b ++ y) : a = b ∧ x = y := by
  simpa [wU8] using h

theorem wMpi_app {a b : Nat} (ha : FitsMpi a) (hb : FitsMpi b) {x y : Bytes} (h : wMpi a ++ x = wMpi b ++ y) : a = b ∧ x = y := by
  have h1 := readMpi_w (fits_mpiOk ha) x
  rw [h, readMpi_w (fits_mpiOk hb)] at h1
  simp only [Res.ok.injEq, Prod.mk.injEq] at h1
  exact ⟨h1.1.symm, h1.2.symm⟩

theorem wPoint_app {c : Curve} (hc : GoodField c) {a b : Point} (ha : OnCurve c a) (hb : OnCurve c b) {x y : Bytes}
    (h : wPoint a ++ x = wPoint b ++ y) : a = b ∧ x = y := by
  have h1 := readPoint_w hc ha x
  rw [h, readPoint_w hc hb] at h1
  simp only [Res.ok.injEq, Prod.mk.injEq] at h1
  exact ⟨h1.1.symm, h1.2.symm⟩

theorem readMpi_fits {s s' : Bytes} {v : Nat} (h : readMpi s = .ok (v, s')) : FitsMpi v := by
  unfold readMpi at h
  obtain ⟨len, s1, h1, h2⟩ := Dec.bind_eq_ok.mp h
  split at h2
  · simp only [Dec.pure_run, Res.ok.injEq, Prod.mk.injEq] at h2
    exact ⟨1, by decide, by omega⟩
  · obtain ⟨b, s2, h3, h4⟩ := Dec.bind_eq_ok.mp h2
    obtain ⟨e1, l1⟩ := SMP4.readN_suffix h3
    simp only [Dec.pure_run, Res.ok.injEq, Prod.mk.injEq] at h4
    refine ⟨len.toNat, len.toNat_lt, ?_⟩
    rw [← h4.1, ← l1]
    exact beNat_lt b

/-- What the decoder guarantees of a data message. -/
def Sized (E : Env) : EncodedMessageType → Prop
  | .data d => FitsMpi d.dhY ∧ d.ctr.length = 8 ∧ d.encrypted.length < 2 ^ 32
  | .data4 d => OnCurve E.curve d.ecdh ∧ FitsMpi (d.dh.getD 0) ∧ (∀ v, d.dh = some v → v ≠ 0) ∧ d.encrypted.length < 2 ^ 32
  | _ => True

theorem parse_sized {E : Env} (hf : GoodField E.curve) {text : Bytes} {m : EncodedMessage} (h : parse E text = .ok (.encoded m)) :
    Sized E m.message := by
  obtain ⟨d, d', hr⟩ := parse_readEncoded h
  unfold readEncoded at hr
  simp only [Dec.bind_eq_ok, Dec.pure_run, Res.ok.injEq, Prod.mk.injEq] at hr
  obtain ⟨v, s1, _, t, s2, _, sn, s3, h3, rc, s4, h4, x, s5, h5, rfl, _⟩ := hr
  simp only
  unfold readContent at h5
  split at h5
  · repeat' split at h5
    all_goals simp only [Dec.bind_eq_ok, Dec.pure_run, Res.ok.injEq, Prod.mk.injEq, Dec.fail_run, reduceCtorEq] at h5
    all_goals obtain ⟨x, _, h1, rfl, h3⟩ := h5
    · trivial
    · trivial
    · trivial
    · trivial
    · simp only [readDataMessage, Dec.bind_eq_ok, Dec.pure_run, Res.ok.injEq, Prod.mk.injEq] at h1
      obtain ⟨_, _, _, sk, _, h2, rk, _, h3, y, _, h4, ctr, _, h5, enc, _, h6, _, _, _, _, _, _, rfl, _⟩ := h1
      exact ⟨readMpi_fits h4, readCtr_len h5, (SMP4.readData_ok h6).2⟩
  · repeat' split at h5
    all_goals simp only [Dec.bind_eq_ok, Dec.pure_run, Res.ok.injEq, Prod.mk.injEq, Dec.fail_run, reduceCtorEq] at h5
    all_goals obtain ⟨x, _, h1, rfl, h3⟩ := h5
    · trivial
    · trivial
    · trivial
    · have hP := data4_onCurve hf h1
      simp only [readDataMessage4, Dec.bind_eq_ok, Dec.pure_run, Res.ok.injEq, Prod.mk.injEq] at h1
      obtain ⟨_, _, _, _, _, _, _, _, _, _, _, _, P, _, _, y, _, h4, enc, _, h6, _, _, _, _, _, _, rfl, _⟩ := h1
      refine ⟨hP, ?_, ?_, (SMP4.readData_ok h6).2⟩
      · by_cases hy : y = 0
        · simp only [hy, if_true]; exact ⟨1, by decide, by decide⟩
        · simp only [hy, if_false]; exact readMpi_fits h4
      · intro v hv
        by_cases hy : y = 0
        · simp [hy] at hv
        · simp only [hy, if_false, Option.some.injEq] at hv
          omega
  · cases h5

/-- C112: all of a data message but its authenticator and the old keys that it publishes, with the tags of sender and receiver and the version, is
covered by the authenticator: two messages for which the authenticator is computed of the same bytes are the same. -/
theorem C112_covered (E : Env) (hf : GoodField E.curve) (t t' : Bytes) (m m' : EncodedMessage) (b : Bytes) (hp : parse E t = .ok (.encoded m))
    (hp' : parse E t' = .ok (.encoded m')) (hb : covered m = some b) (hb' : covered m' = some b) : bare m = bare m' := by
  have s1 := parse_sized hf hp
  have s2 := parse_sized hf hp'
  have d1 := (C13_header E t m hp).2.1
  have d2 := (C13_header E t' m' hp').2.1
  obtain ⟨v, snd, rcv, msg⟩ := m
  obtain ⟨v', snd', rcv', msg'⟩ := m'
  have he := hb.trans hb'.symm
  cases msg <;> simp only [covered, reduceCtorEq] at hb <;> cases msg' <;> simp only [covered, reduceCtorEq] at hb'
  · rename_i d d'
    simp only [DefinedFor] at d1 d2
    simp only [Sized] at s1 s2
    subst d1 d2
    simp only [covered, authenticatorData, Option.some.injEq, List.append_assoc] at he
    have he := (List.append_cancel_left he)
    have he := (List.append_cancel_left he)
    obtain ⟨f1, he⟩ := wU32_app he
    obtain ⟨f2, he⟩ := wU32_app he
    obtain ⟨e1, he⟩ := wU8_app he
    obtain ⟨e2, he⟩ := wU32_app he
    obtain ⟨e3, he⟩ := wU32_app he
    obtain ⟨e4, he⟩ := wMpi_app s1.1 s2.1 he
    obtain ⟨e5, he⟩ := List.append_inj he (s1.2.1.trans s2.2.1.symm)
    obtain ⟨e6, -⟩ := SMP4.wData_inj (b := []) (b' := []) (by simpa using he) s1.2.2 s2.2.2
    simp only [bare, f1, f2, e1, e2, e3, e4, e5, e6]
  · simp only [covered, authenticatorData, authenticatorData4, Option.some.injEq, List.append_assoc] at he
    have := (List.append_inj he (by simp [wU16])).1
    simp [wU16] at this
    exact absurd this (by decide)
  · simp only [covered, authenticatorData, authenticatorData4, Option.some.injEq, List.append_assoc] at he
    have := (List.append_inj he (by simp [wU16])).1
    simp [wU16] at this
    exact absurd this (by decide)
  · rename_i d d'
    simp only [DefinedFor] at d1 d2
    simp only [Sized] at s1 s2
    subst d1 d2
    simp only [covered, authenticatorData4, Option.some.injEq, List.append_assoc] at he
    have he := (List.append_cancel_left he)
    have he := (List.append_cancel_left he)
    obtain ⟨f1, he⟩ := wU32_app he
    obtain ⟨f2, he⟩ := wU32_app he
    obtain ⟨e1, he⟩ := wU8_app he
    obtain ⟨e2, he⟩ := wU32_app he
    obtain ⟨e3, he⟩ := wU32_app he
    obtain ⟨e4, he⟩ := wU32_app he
    obtain ⟨e5, he⟩ := wPoint_app hf s1.1 s2.1 he
    obtain ⟨e6, he⟩ := wMpi_app s1.2.1 s2.2.1 he
    obtain ⟨e7, -⟩ := SMP4.wData_inj (b := []) (b' := []) (by simpa using he) s1.2.2.2 s2.2.2.2
    have e8 : d.dh = d'.dh := by
      cases h1 : d.dh <;> cases h2 : d'.dh <;> simp only [h1, h2, Option.getD_none, Option.getD_some] at e6
      · rfl
      · exact absurd e6.symm (s2.2.2.1 _ h2)
      · exact absurd e6 (s1.2.2.1 _ h1)
      · rw [e6]
    simp only [bare, f1, f2, e1, e2, e3, e4, e5, e7, e8]

/-- C112: a text that is reported as confidential came in a message whose authenticator is that of the covered bytes, with the key that the session
has for this message. -/
theorem C112_checked (E : Env) (A : Account) (h : List Ev) (s : Session) (hh : Hist E A h s) (c : Call) (payload : Bytes)
    (k : UInt32) (content : Bytes) (tlvs : List TLV)
    (hr : ((Op.receive payload).run E A c s).result = .ok (.user (.confidential k content tlvs))) :
    ∃ t m b key, Delivers E A s payload m ∧ parse E t = .ok (.encoded m) ∧ m.sender = k ∧ m.receiver = A.tag ∧ covered m = some b ∧
      ChecksWith E c.now m (stateOf s k) key ∧ authOf m = some (codeWith E m key b) := by
  obtain ⟨m, i, hd, h1, h2, hl, hdec⟩ := C70_authentic E A h s hh c payload k content tlvs hr
  have hs : stateOf s k = i.state := by unfold stateOf; rw [hl]
  obtain ⟨t, ht⟩ : ∃ t, parse E t = .ok (.encoded m) := by
    rcases hd with ⟨_, hd⟩ | ⟨_, _, _, t, _, _, _, _, _, _, _, hd⟩
    · exact ⟨_, hd⟩
    · exact ⟨_, hd⟩
  have hal := hist_alive hh k
  rw [hs] at hal
  have hg : Genuine E c m i.state := by
    apply Classical.byContradiction
    intro hg
    obtain ⟨v, snd, rcv, msg⟩ := m
    rcases hdec with ⟨x, smp, d, x', last, e1, e2, e3, e4⟩ | ⟨x, smp, d, x', last, e1, e2, e3, e4, e5⟩
    · simp only at e2 e3
      subst e2 e3
      rw [e1] at hal hg
      rcases Instance.forged3 (fresh := c.rnd.bytes [0] 192) hal (parse_decoded ht rfl) hg with h | ⟨e, h⟩ <;>
        simp only [PState.handle3, PState.transition, PState.with3, e4] at h <;> cases last <;> simp at h
    · simp only at e2 e3
      subst e2 e3
      rw [e1] at hg
      rcases Instance.forged4 e4 hg with h | ⟨e, h⟩ <;> simp only [PState.handle4, PState.transition, PState.with4, e5] at h <;> cases last <;> simp at h
  rw [hs]
  clear hs hdec hal hl
  generalize i.state = st at hg ⊢
  cases hg with
  | @otr3 x smp d sec g1 g2 g3 g4 g5 g6 =>
    have k1 : covered m = some (authenticatorData 3 m.sender m.receiver d) := by simp only [covered, g2]
    have k2 : authOf m = some (codeWith E m (sec.receiverMac E) (authenticatorData 3 m.sender m.receiver d)) := by
      simp only [authOf, codeWith, g2, g6]
    exact ⟨t, m, _, _, hd, ht, h1, h2, k1, .otr3 g2 g5, k2⟩
  | @otr4 x smp d d1 g1 g2 g3 g4 g5 =>
    have k1 : covered m = some (authenticatorData4 4 m.sender m.receiver d) := by simp only [covered, g2]
    have k2 : authOf m = some (codeWith E m
        (kdf E 64 0x16 (kdf E 64 0x15 (chainFwd E (d.j.toNat - d1.receiver.id.toNat) d1.receiver.chain)))
        (authenticatorData4 4 m.sender m.receiver d)) := by simp only [authOf, codeWith, g2, g5]
    exact ⟨t, m, _, _, hd, ht, h1, h2, k1, .otr4 g2 g4, k2⟩

/-- C112: if the message that brought a confidential text has the authenticator that another message has, made with any key, then it is the same as
the other, but for the old keys that it publishes, unless these two keys give the same authenticator to two different byte strings. -/
theorem C112_altered (E : Env) (hf : GoodField E.curve) (A : Account) (h : List Ev) (s : Session) (hh : Hist E A h s) (c : Call) (payload : Bytes)
    (k : UInt32) (content : Bytes) (tlvs : List TLV)
    (hr : ((Op.receive payload).run E A c s).result = .ok (.user (.confidential k content tlvs)))
    (t₀ : Bytes) (m₀ : EncodedMessage) (hp : parse E t₀ = .ok (.encoded m₀)) (b₀ key₀ : Bytes) (hc : covered m₀ = some b₀)
    (ha : authOf m₀ = some (codeWith E m₀ key₀ b₀)) :
    ∃ m b key, Delivers E A s payload m ∧ covered m = some b ∧ ChecksWith E c.now m (stateOf s k) key ∧
      (authOf m = authOf m₀ → bare m = bare m₀ ∨ b ≠ b₀ ∧ codeWith E m key b = codeWith E m₀ key₀ b₀) := by
  obtain ⟨t, m, b, key, hd, ht, _, _, e1, e2, e3⟩ := C112_checked E A h s hh c payload k content tlvs hr
  refine ⟨m, b, key, hd, e1, e2, fun e4 => ?_⟩
  by_cases hb : b = b₀
  · subst hb
    exact .inl (C112_covered E hf t t₀ m m₀ b ht hp e1 hc)
  · refine .inr ⟨hb, ?_⟩
    rw [e3, ha] at e4
    exact Option.some.inj e4

/-- Bob reads a text of an OTRv3 session, Alice one of an OTRv4 session; the other message is the same one. -/
example : (∃ h t m b key, Hist tinyEnv acB h b5.after ∧ z7.result = .ok (.user (.confidential 0x100 [104, 105] [])) ∧
      parse tinyEnv t = .ok (.encoded m) ∧ covered m = some b ∧ authOf m = some (codeWith tinyEnv m key b)) ∧
    (∃ h t m b key, Hist tinyEnv acA h l4.after ∧ l7h.result = .ok (.user (.confidential 0x102 [104, 105] [])) ∧
      parse tinyEnv t = .ok (.encoded m) ∧ covered m = some b ∧ authOf m = some (codeWith tinyEnv m key b)) ∧ GoodField tinyEnv.curve := by
  refine ⟨?_, ?_, toy_goodField⟩
  · have hr := runBegan.2.2.1.2.1
    obtain ⟨t, m, b, key, _, h2, _, _, h3, _, h4⟩ := C112_checked tinyEnv acB _ _ hist_bob3 (callB 1000 7) (text y6) 0x100 [104, 105] []
      (by rw [← hr]; unfold z7; rfl)
    exact ⟨_, t, m, b, key, hist_bob3, hr, h2, h3, h4⟩
  · have hr := runAnswered.2.2.1.2.1
    obtain ⟨t, m, b, key, _, h2, _, _, h3, _, h4⟩ := C112_checked tinyEnv acA _ _ hist_alice (meetA 5000 7) (text k6h) 0x102 [104, 105] []
      (by rw [← hr]; unfold l7h; rfl)
    exact ⟨_, t, m, b, key, hist_alice, hr, h2, h3, h4⟩

end Otrr.Props
