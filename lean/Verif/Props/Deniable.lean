import Verif.Lemmas.Deniable
import Verif.Props.SessionLife
import Verif.Lemmas.SessionExchange
/-! C100: a data message proves nothing to others once its MAC key is revealed. -/

namespace Otrr.Props
open Otrr.Spec Otrr.Session

/-- C100: the receiver of a data message keeps a MAC key to be revealed, and whoever has it can give the message any other text of the
same length: the forged message is accepted in place of the original, with that text, and leaves the same session.  (A text has no NUL
byte; a MAC of zero bytes only is rejected.) -/
theorem C100_forged (E : Env) (A : Account) (h : List Ev) (s : Session) (hh : Hist E A h s) (c : Call) (payload : Bytes) (m : EncodedMessage)
    (text : Bytes) (tlvs : List TLV) (s' : PState) (hd : Delivers E A s payload m)
    (hdec : DecryptsTo E c m (stateOf s m.sender) (.confidential text tlvs) s') :
    ∃ mac, KeepsToReveal s' mac ∧ ∀ text' : Bytes, text'.length = text.length → (∀ b ∈ text', b ≠ 0) →
      (∃ b ∈ authenticatorOf (forge E mac m text text'), b ≠ 0) →
      DecryptsTo E c (forge E mac m text text') (stateOf s m.sender) (.confidential text' tlvs) s' := by
  have ha := hist_alive hh m.sender
  obtain ⟨payload', hp⟩ := delivers_parse hd
  rcases hdec with ⟨x, smp, d, x', last, h1, h2, h3, h4, rfl⟩ | ⟨x, smp, d, x', last, h1, h2, h3, h4, h5, rfl⟩
  · obtain ⟨x0, l, _, hf, hl, _⟩ := ha.1 x smp h1
    obtain ⟨rfl, mac, k1, k2, k3, k4⟩ := handle3_forge (life3_wf (fresh3_wf hf).1 hl) (parse_decoded hp h3) h4
    refine ⟨mac, k3.2, fun text' t1 t2 t3 => ?_⟩
    have e : forge E mac m text text' = { m with message := .data (forge3 E mac m.sender m.receiver d text text') } := by
      simp only [forge, h3]
    rw [e] at t3 ⊢
    exact .inl ⟨x, smp, _, x', false, h1, h2, rfl, k4 text' t1 t2 (anyNonzero_of_mem t3), rfl⟩
  · obtain ⟨rfl, mac, k1, k2, k3, k4⟩ := handle4_forge h5
    refine ⟨mac, k3, fun text' t1 t2 t3 => ?_⟩
    have e : forge E mac m text text' = { m with message := .data4 (forge4 E mac m.sender m.receiver d text text') } := by
      simp only [forge, h3]
    rw [e] at t3 ⊢
    have hv : (forge4 E mac m.sender m.receiver d text text').validate E = .ok () := by
      have hn := (validate_ok h4).2.2.2.2.2
      rw [DataMessage4.validate] at h4 ⊢
      simp only [forge4]
      rw [hn] at h4
      rw [show anyNonzero (kdf2 E 64 24 mac (authenticatorData4 4 m.sender m.receiver { d with encrypted := retext d.encrypted text text' })) = true
        from anyNonzero_of_mem t3]
      exact h4
    exact .inr ⟨x, smp, _, x', false, h1, h2, rfl, hv, k4 text' t1 t2 (anyNonzero_of_mem t3), rfl⟩

/-- C100: the same, told by the results of calls: the client reports the text of the original, and would report any other text of the same
length when that was sent in its place by someone who knows the text and the MAC key. -/
theorem C100_reported (E : Env) (A : Account) (h : List Ev) (s : Session) (hh : Hist E A h s) (c : Call) (payload : Bytes) (m : EncodedMessage)
    (text : Bytes) (tlvs : List TLV) (s' : PState) (hd : Delivers E A s payload m)
    (hv : m.version = .v3 ∧ AllowsV3 A ∨ m.version = .v4 ∧ AllowsV4 A) (hs : m.sender ≠ 0) (hr : m.receiver = A.tag) (ht : A.tag ≠ 0)
    (hdec : DecryptsTo E c m (stateOf s m.sender) (.confidential text tlvs) s') (hsmp : tlvs.any (isSmpTlv m.version) = false) :
    let e := (Op.receive payload).run E A c s
    e.result = .ok (.user (.confidential m.sender text tlvs)) ∧
    ∃ mac, KeepsToReveal (stateOf e.after m.sender) mac ∧
      ∀ (text' payload' : Bytes), text'.length = text.length → (∀ b ∈ text', b ≠ 0) →
        (∃ b ∈ authenticatorOf (forge E mac m text text'), b ≠ 0) → Delivers E A s payload' (forge E mac m text text') →
        let e' := (Op.receive payload').run E A c s
        e'.result = .ok (.user (.confidential m.sender text' tlvs)) ∧ stateOf e'.after m.sender = stateOf e.after m.sender := by
  obtain ⟨mac, k1, k2⟩ := C100_forged E A h s hh c payload m text tlvs s' hd hdec
  have hf : ∀ t', (forge E mac m text t').version = m.version ∧ (forge E mac m text t').sender = m.sender ∧
      (forge E mac m text t').receiver = m.receiver := by
    intro t'
    unfold forge
    split <;> exact ⟨rfl, rfl, rfl⟩
  have run : ∀ (p : Bytes) (m' : EncodedMessage) (t : Bytes), Delivers E A s p m' → m'.version = m.version → m'.sender = m.sender →
      m'.receiver = m.receiver → DecryptsTo E c m' (stateOf s m'.sender) (.confidential t tlvs) s' →
      ((Op.receive p).run E A c s).result = .ok (.user (.confidential m.sender t tlvs)) ∧
        stateOf ((Op.receive p).run E A c s).after m.sender = s' := by
    intro p m' t h1 h2 h3 h4 h5
    obtain ⟨i', fl, s1, x, hn, hrc, rfl, _, hx⟩ := data_runTo (hist_inv hh) h1 (h2 ▸ hv) (h3 ▸ hs) (h4 ▸ hr) ht h5
    rw [h2, h3] at hx
    simp only [Op.run, perform, hx, Instance.handleDecrypted, StM.bind_run, StM.gets, hsmp, Bool.false_eq_true, if_false, StM.pure_run, hrc,
      stateOf, lookup_insertKey, if_true, h3, true_and]
    exact hn
  intro e
  obtain ⟨r1, r2⟩ := run payload m text hd rfl rfl rfl hdec
  refine ⟨r1, mac, by rw [r2]; exact k1, fun text' payload' t1 t2 t3 t4 => ?_⟩
  obtain ⟨f1, f2, f3⟩ := hf text'
  intro e'
  rw [r2]
  exact run payload' _ text' t4 f1 f2 f3 (by rw [f2]; exact k2 text' t1 t2 t3)

/-- C100: the forged message fits the wire format when the original does, so that it can be sent. -/
theorem C100_sendable (E : Env) (hc : GoodCurve E.curve) (A : Account) (s : Session) (m : EncodedMessage) (mac text text' : Bytes)
    (hs : ValidTag m.sender) (hr : ValidTag m.receiver) (hv : DefinedFor m.message m.version) (hw : WfMessage E m.message)
    (hl : text'.length = text.length) : ∃ payload', Delivers E A s payload' (forge E mac m text text') := by
  have hf : (forge E mac m text text').sender = m.sender ∧ (forge E mac m text text').receiver = m.receiver ∧
      DefinedFor (forge E mac m text text').message (forge E mac m text text').version ∧ WfMessage E (forge E mac m text text').message := by
    unfold forge
    cases hm : m.message with
    | data d =>
      rw [hm] at hv hw
      refine ⟨rfl, rfl, hv, hw.1, hw.2.1, hw.2.2.1, hw.2.2.2.1, hw.2.2.2.2.1, ?_, E.hmacSha1_len _ _, hw.2.2.2.2.2.2.2⟩
      rw [show (forge3 E mac m.sender m.receiver d text text').encrypted = retext d.encrypted text text' from rfl, retext_length hl]
      exact hw.2.2.2.2.2.1
    | data4 d =>
      rw [hm] at hv hw
      refine ⟨rfl, rfl, hv, hw.1, hw.2.1, hw.2.2.1, ?_, E.shake_len _ _, hw.2.2.2.2.2⟩
      rw [show (forge4 E mac m.sender m.receiver d text text').encrypted = retext d.encrypted text text' from rfl, retext_length hl]
      exact hw.2.2.2.1
    | _ => rw [hm] at hv hw; exact ⟨rfl, rfl, by rw [hm]; exact hv, by rw [hm]; exact hw⟩
  obtain ⟨t, h1, h2⟩ := C03_transport E hc (forge E mac m text text') (hf.1 ▸ hs) (hf.2.1 ▸ hr) hf.2.2.1 hf.2.2.2
  exact ⟨t, .inl ⟨encoded_notFragment h1, h2⟩⟩

/-- C100: an OTRv3 client keeps the key until a message that it sends reveals it. -/
theorem C100_published3 (E : Env) (x₀ x y : Enc3) (l h : List Ev3) (smp smp' : SMPContext) (mac : Bytes) (hf : Fresh3 E x₀) (hx : Life3 E x₀ l x)
    (hl : Life3 E x h y) (hk : KeepsToReveal (.encrypted3 x smp) mac) :
    KeepsToReveal (.encrypted3 y smp') mac ∨ ∃ m, Ev3.sent m ∈ h ∧ KeyIn 20 mac m.revealed := by
  have hw := life3_wf (fresh3_wf hf).1 hx
  exact (kept3_life hw hl ⟨hw.used, hk⟩).imp_left fun h => h.2

/-- C100: an OTRv4 client keeps the key until a message that it sends reveals it. -/
theorem C100_published4 (E : Env) (x y : Enc4) (h : List Ev4) (smp smp' : SMP4Context) (mac : Bytes) (hl : Life4 E x h y)
    (hk : KeepsToReveal (.encrypted4 x smp) mac) :
    KeepsToReveal (.encrypted4 y smp') mac ∨ ∃ m, Ev4.sent m ∈ h ∧ KeyIn 64 mac m.revealed := kept4_life hl hk

/-- C100: the message with which an OTRv4 client ends a session reveals all keys it kept. -/
theorem C100_end4 (E : Env) (x y : Enc4) (smp : SMP4Context) (mac : Bytes) (rnd : Rand) (now : Nat) (m : DataMessage4)
    (hk : KeepsToReveal (.encrypted4 x smp) mac) (he : Enc4.disconnect E rnd now x = (.ok m, y)) : KeyIn 64 mac m.revealed := by
  unfold Enc4.disconnect Enc4.onRatchet at he
  split at he
  · rename_i a d' hx
    simp only [Prod.mk.injEq, Res.ok.injEq] at he
    obtain ⟨rfl, rfl⟩ := he
    obtain ⟨rv, d1, keys, g1, _, g3, _, _⟩ := encrypt4_ok hx
    have hrv : a.revealed = rv := by rw [g3]; rfl
    rw [hrv]
    rcases ratchetForSend_ok g1 with ⟨_, h1, _⟩ | ⟨_, h1, _⟩
    · rw [h1, List.append_nil]; exact hk
    · rw [h1]; exact hk
  · cases he
  · cases he

/-- Bob got `hi` from Alice over OTRv4 and reported it; the theorems apply, so that a forged message would have told anything else of two
bytes. -/
example : ∃ h m s', Hist ToySession.tinyEnv ToySession.acB h ToySession.b5.after ∧
    Delivers ToySession.tinyEnv ToySession.acB ToySession.b5.after (ToySession.text ToySession.a6) m ∧
    (m.version = .v3 ∧ AllowsV3 ToySession.acB ∨ m.version = .v4 ∧ AllowsV4 ToySession.acB) ∧ m.sender ≠ 0 ∧
    m.receiver = ToySession.acB.tag ∧ ToySession.acB.tag ≠ 0 ∧
    DecryptsTo ToySession.tinyEnv (ToySession.callB 1000 7) m (stateOf ToySession.b5.after m.sender) (.confidential [104, 105] []) s' := by
  obtain ⟨h, hh⟩ := ToySession.hist_b5
  have hr := ToySession.b7_result
  unfold ToySession.b7 at hr
  obtain ⟨m, i, hd, hk, hrec, hl, hdec⟩ := C70_authentic _ _ h _ hh _ _ _ _ _ hr
  have hst : stateOf ToySession.b5.after m.sender = i.state := by simp only [stateOf, hk, hl]
  have h3 : AllowsV3 ToySession.acB := by simp only [AllowsV3, PolicyBit]; decide
  have h4 : AllowsV4 ToySession.acB := by simp only [AllowsV4, PolicyBit]; decide
  rcases hdec with ⟨x, smp, d, x', last, e1, e2, e3, e4⟩ | ⟨x, smp, d, x', last, e1, e2, e3, e4, e5⟩
  · exact ⟨h, m, _, hh, hd, .inl ⟨e2, h3⟩, by rw [hk]; decide, hrec, by decide,
      .inl ⟨x, smp, d, x', last, by rw [hst, e1], e2, e3, e4, rfl⟩⟩
  · exact ⟨h, m, _, hh, hd, .inr ⟨e2, h4⟩, by rw [hk]; decide, hrec, by decide,
      .inr ⟨x, smp, d, x', last, by rw [hst, e1], e2, e3, e4, e5, rfl⟩⟩

open Toy3 in
/-- In OTRv3, `b` got `hi` and revealed the MAC key in its reply `n2`; with that key, which was sent in the open, the same message is made
to say `no`, and `b` would have accepted that. -/
example : n2.revealed.length = 20 ∧
    Enc3.handle toyEnv (forge3 toyEnv n2.revealed a2.our b0.our m1 [104, 105] [110, 111])
      (authenticatorData 3 a2.our b0.our (forge3 toyEnv n2.revealed a2.our b0.our m1 [104, 105] [110, 111])) [7] b0 =
        (.ok (.confidential [110, 111] [], false), b1) := by decide +kernel

end Otrr.Props
