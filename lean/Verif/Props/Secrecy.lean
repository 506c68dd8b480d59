import Verif.Spec.Secrecy
import Verif.Props.Session
import Verif.Lemmas.KeyManager
import Verif.Lemmas.Ratchet
/-! C120: an encrypted message tells nothing about its text but the length. -/

namespace Otrr.Props
open Otrr Otrr.Spec Otrr.Session

/-- The pad that turns `text` into `cipher`. -/
def padFor (text cipher : Bytes) : Bytes := List.zipWith (· ^^^ ·) text cipher

theorem xorStream_length (ks : Nat → UInt8) (d : Bytes) : (xorStream ks d).length = d.length := by simp [xorStream]

theorem xorStream_pad {text cipher : Bytes} (h : text.length = cipher.length) : xorStream (fun i => (padFor text cipher).getD i 0) text = cipher := by
  apply List.ext_getElem
  · rw [xorStream_length, h]
  · intro i h1 h2
    have h3 : i < text.length := by rw [h]; exact h2
    have h4 : i < (padFor text cipher).length := by simp [padFor]; omega
    simp only [xorStream, List.getElem_mapIdx]
    rw [List.getD_eq_getElem _ _ h4]
    simp only [padFor, List.getElem_zipWith]
    rw [← UInt8.xor_assoc, UInt8.xor_self, UInt8.zero_xor]

theorem pad_unique {text cipher pad : Bytes} (hp : pad.length = text.length) (h : xorStream (fun i => pad.getD i 0) text = cipher) :
    pad = padFor text cipher := by
  have hl : text.length = cipher.length := by rw [← h, xorStream_length]
  apply List.ext_getElem
  · simp [padFor]; omega
  · intro i h1 h2
    have h3 : i < text.length := by omega
    simp only [padFor, List.getElem_zipWith]
    subst h
    simp only [xorStream, List.getElem_mapIdx]
    rw [List.getD_eq_getElem _ _ h1, ← UInt8.xor_assoc, UInt8.xor_self, UInt8.zero_xor]

theorem stream_aes (E : Env) (key nonce pad : Bytes) (d : Bytes) : aesCrypt (repad E (.aes key nonce) pad) key nonce d = xorStream (fun i => pad.getD i 0) d := by
  unfold aesCrypt repad
  simp

theorem stream_chacha (E : Env) (key pad : Bytes) (d : Bytes) : chachaCrypt (repad E (.chacha key) pad) key d = xorStream (fun i => pad.getD i 0) d := by
  unfold chachaCrypt repad
  simp

/-- `encrypt3` depends on the cipher and the text only through the ciphertext. -/
theorem encrypt3_cipher {E E' : Env} {our their : UInt32} {flags : UInt8} {plain plain' : Bytes} {k k' : KeyManager} {m : DataMessage}
    {key nonce pad : Bytes} (hE : E' = repad E (.aes key nonce) pad)
    (h : encrypt3 E our their flags plain k = (.ok m, k'))
    (he : ∀ sec, dataSecrets E k.ours.current.2 k.theirs.current.2 = .ok sec →
      aesCrypt E' sec.sendkey (ctrNonce m.ctr) plain' = aesCrypt E sec.sendkey (ctrNonce m.ctr) plain) :
    encrypt3 E' our their flags plain' k = (.ok m, k') := by
  have e1 : ∀ a b, dataSecrets E' a b = dataSecrets E a b := fun a b => by subst hE; rfl
  have e2 : E'.hmacSha1 = E.hmacSha1 := by subst hE; rfl
  have e3 : ∀ s : DataSecrets, s.senderMac E' = s.senderMac E := fun a => by subst hE; rfl
  clear hE
  simp only [encrypt3, StM.bind_ok, takeCounter_ok, StM.gets_eq, StM.query_eq, StM.lift_eq, getRevealMacs_ok,
    Res.assert_eq_ok, StM.pure_eq, Res.ok.injEq] at h ⊢
  obtain ⟨ctr, _, ⟨hc, rfl⟩, _, _, ⟨rfl, rfl⟩, _, _, ⟨rfl, rfl⟩, ⟨nid, nk⟩, _, ⟨hn, rfl⟩, sec, _, ⟨hs, rfl⟩,
    _, _, ⟨hz, rfl⟩, old, _, ⟨ho, rfl, rfl⟩, _, _, ⟨ho2, rfl⟩, _, _, ⟨ho3, rfl⟩, _, _, ⟨ha, rfl⟩, rfl, rfl⟩ := h
  have he := he sec hs
  dsimp only at he
  refine ⟨ctr, _, ⟨hc, rfl⟩, _, _, ⟨rfl, rfl⟩, _, _, ⟨rfl, rfl⟩, ⟨nid, nk⟩, _, ⟨hn, rfl⟩, sec, _, ⟨(e1 _ _).trans hs, rfl⟩,
    (), _, ⟨by rw [he]; exact hz, rfl⟩, _, _, ⟨ho, rfl, rfl⟩, (), _, ⟨ho2, rfl⟩, (), _, ⟨ho3, rfl⟩, (), _, ⟨by rw [he, e2, e3]; exact ha, rfl⟩, ?_, rfl⟩
  rw [he, e2, e3]

/-- C120, OTRv3: whatever text of the same length the client had encrypted in the same state, the message could be the same.  For every such text there is
exactly one key stream, as long as the text, with which it is: a key stream that is not known fits all texts equally. -/
theorem C120_otr3 (E : Env) (flags : UInt8) (plain : Bytes) (s s' : Enc3) (m : DataMessage) (h : Enc3.encrypt E flags plain s = (.ok m, s')) :
    ∃ key, ∀ plain' : Bytes, plain'.length = plain.length →
      ∃! pad : Bytes, pad.length = plain.length ∧ Enc3.encrypt (repad E (.aes key (ctrNonce m.ctr)) pad) flags plain' s = (.ok m, s') := by
  unfold Enc3.encrypt at h
  cases hx : encrypt3 E s.our s.their flags plain s.keys with
  | mk r k =>
    rw [hx] at h
    simp only [Prod.mk.injEq] at h
    obtain ⟨rfl, rfl⟩ := h
    obtain ⟨sec, h1, -, h2, h3, -⟩ := encrypt3_ok hx
    have hm : m.encrypted = aesCrypt E sec.sendkey (ctrNonce m.ctr) plain := by conv_lhs => rw [h3]; simp only [built3]
    refine ⟨sec.sendkey, fun plain' hl => ?_⟩
    have hml : plain'.length = m.encrypted.length := by rw [hm, aesCrypt, xorStream_length, hl]
    refine ⟨padFor plain' m.encrypted, ⟨by simp [padFor]; omega, ?_⟩, ?_⟩
    · unfold Enc3.encrypt
      rw [encrypt3_cipher rfl hx (fun sec' h' => ?_)]
      rw [h1] at h'
      cases h'
      rw [stream_aes, xorStream_pad hml, hm]
    · rintro pad ⟨hp, he⟩
      unfold Enc3.encrypt at he
      cases hy : encrypt3 (repad E (.aes sec.sendkey (ctrNonce m.ctr)) pad) s.our s.their flags plain' s.keys with
      | mk r k' =>
        rw [hy] at he
        simp only [Prod.mk.injEq] at he
        obtain ⟨rfl, -⟩ := he
        obtain ⟨sec', h1', -, h2', h3', -⟩ := encrypt3_ok hy
        have hs : sec' = sec := by
          have : dataSecrets E s.keys.ours.current.2 s.keys.theirs.current.2 = .ok sec' := h1'
          rw [h1] at this; cases this; rfl
        subst hs
        refine pad_unique (hp.trans hl.symm) ?_
        conv_rhs => rw [h3']; simp only [built3]
        rw [stream_aes]

/-- `encrypt4` depends on the cipher and the text only through the ciphertext. -/
theorem encrypt4_cipher {E E' : Env} {our their : UInt32} {flags : UInt8} {plain plain' reveals : Bytes} {r : Rand} {now : Nat} {d d' : DoubleRatchet} {m : DataMessage4}
    {key pad : Bytes} (hE : E' = repad E (.chacha key) pad)
    (h : encrypt4 E our their flags plain reveals r now d = .ok (m, d'))
    (he : ∀ rv d1 keys, ratchetForSend E d reveals r now = .ok (rv, d1) → d1.sender.keys E = .ok keys →
      chachaCrypt E' (encKey keys.enc) plain' = chachaCrypt E (encKey keys.enc) plain) :
    encrypt4 E' our their flags plain' reveals r now d = .ok (m, d') := by
  have e1 : ratchetForSend E' d reveals r now = ratchetForSend E d reveals r now := by subst hE; rfl
  have e2 : ∀ x : Ratchet, x.keys E' = x.keys E := fun x => by subst hE; rfl
  have e3 : kdf2 E' = kdf2 E := by subst hE; rfl
  have e4 : ∀ m : DataMessage4, m.validate E' = m.validate E := fun x => by subst hE; rfl
  have e5 : ∀ x : DoubleRatchet, x.rotateSenderChain E' = x.rotateSenderChain E := fun x => by subst hE; rfl
  have e6 : authenticatorData4 = authenticatorData4 := rfl
  clear hE
  simp only [encrypt4, Res.bind_eq_ok, Res.assert_eq_ok, Res.pure_def, Res.ok.injEq, exists_const,
    Prod.mk.injEq, Prod.exists] at h ⊢
  obtain ⟨rv, d1, h1, keys, h2, h3, d2, h4, h5, rfl⟩ := h
  have he := he rv d1 keys h1 h2
  exact ⟨rv, d1, e1.trans h1, keys, (e2 _).trans h2, by rw [he, e3, e4]; exact h3, d2, (e5 _).trans h4, by rw [he, e3]; exact h5, rfl⟩

/-- C120, OTRv4. -/
theorem C120_otr4 (E : Env) (flags : UInt8) (plain : Bytes) (r : Rand) (now : Nat) (s s' : Enc4) (m : DataMessage4)
    (h : Enc4.encrypt E flags plain r now s = (.ok m, s')) :
    ∃ key, ∀ plain' : Bytes, plain'.length = plain.length →
      ∃! pad : Bytes, pad.length = plain.length ∧ Enc4.encrypt (repad E (.chacha key) pad) flags plain' r now s = (.ok m, s') := by
  unfold Enc4.encrypt Enc4.onRatchet at h
  cases hx : encrypt4 E s.our s.their flags plain [] r now s.ratchet with
  | err e => rw [hx] at h; simp at h
  | panic => rw [hx] at h; simp at h
  | ok a =>
    obtain ⟨m0, d'⟩ := a
    rw [hx] at h
    simp only [Prod.mk.injEq, Res.ok.injEq] at h
    obtain ⟨rfl, rfl⟩ := h
    obtain ⟨rv, d1, keys, h1, h2, h3, -⟩ := encrypt4_ok hx
    have hm : m0.encrypted = chachaCrypt E (encKey keys.enc) plain := by conv_lhs => rw [h3]; simp only [built4]
    refine ⟨encKey keys.enc, fun plain' hl => ?_⟩
    have hml : plain'.length = m0.encrypted.length := by rw [hm, chachaCrypt, xorStream_length, hl]
    refine ⟨padFor plain' m0.encrypted, ⟨by simp [padFor]; omega, ?_⟩, ?_⟩
    · unfold Enc4.encrypt Enc4.onRatchet
      rw [encrypt4_cipher rfl hx (fun rv' d1' keys' h1' h2' => ?_)]
      rw [h1] at h1'
      cases h1'
      rw [h2] at h2'
      cases h2'
      rw [stream_chacha, xorStream_pad hml, hm]
    · rintro pad ⟨hp, he⟩
      unfold Enc4.encrypt Enc4.onRatchet at he
      cases hy : encrypt4 (repad E (.chacha (encKey keys.enc)) pad) s.our s.their flags plain' [] r now s.ratchet with
      | err e => rw [hy] at he; simp at he
      | panic => rw [hy] at he; simp at he
      | ok a =>
        obtain ⟨m1, d1'⟩ := a
        rw [hy] at he
        simp only [Prod.mk.injEq, Res.ok.injEq] at he
        obtain ⟨rfl, -⟩ := he
        obtain ⟨rv', d2, keys', k1, k2, k3, -⟩ := encrypt4_ok hy
        have k1' : ratchetForSend E s.ratchet [] r now = .ok (rv', d2) := k1
        rw [h1] at k1'
        cases k1'
        have k2' : d1.sender.keys E = .ok keys' := k2
        rw [h2] at k2'
        cases k2'
        refine pad_unique (hp.trans hl.symm) ?_
        conv_rhs => rw [k3]; simp only [built4]
        rw [stream_chacha]

theorem prepare_repad {E : Env} {flags : UInt8} {plain : Bytes} {rnd : Rand} {now : Nat} {s s' : PState} {m : EncodedMessageType}
    (hs : s.status = .encrypted) (h : s.prepare E flags plain rnd now = (.ok m, s')) :
    ∃ K, ∀ plain' : Bytes, plain'.length = plain.length →
      ∃ pad : Bytes, pad.length = plain.length ∧ s.prepare (repad E K pad) flags plain' rnd now = (.ok m, s') := by
  cases s with
  | plaintext => cases hs
  | finished => cases hs
  | encrypted3 x smp =>
    simp only [PState.prepare, StM.bind_run] at h
    cases hx : Enc3.encrypt E flags plain x with
    | mk r x' =>
      rw [hx] at h
      cases r with
      | err e => simp [PState.with3] at h
      | panic => simp [PState.with3] at h
      | ok d =>
        obtain ⟨key, hk⟩ := C120_otr3 E flags plain x x' d hx
        refine ⟨.aes key (ctrNonce d.ctr), fun plain' hl => ?_⟩
        obtain ⟨pad, ⟨h1, h2⟩, -⟩ := hk plain' hl
        refine ⟨pad, h1, ?_⟩
        simp only [PState.prepare, StM.bind_run, h2]
        exact h
  | encrypted4 x smp =>
    simp only [PState.prepare, StM.bind_run] at h
    cases hx : Enc4.encrypt E flags plain rnd now x with
    | mk r x' =>
      rw [hx] at h
      cases r with
      | err e => simp [PState.with4] at h
      | panic => simp [PState.with4] at h
      | ok d =>
        obtain ⟨key, hk⟩ := C120_otr4 E flags plain rnd now x x' d hx
        refine ⟨.chacha key, fun plain' hl => ?_⟩
        obtain ⟨pad, ⟨h1, h2⟩, -⟩ := hk plain' hl
        refine ⟨pad, h1, ?_⟩
        simp only [PState.prepare, StM.bind_run, h2]
        exact h

/-- C120, the session: what `send` returns for a text in an encrypted session, and everything it does to the session, would be the same for every other
text of the same length (not counting NUL bytes, which are never sent), if the key stream of one key were another. -/
theorem C120_session (E : Env) (A : Account) (c : Call) (s : Session) (k : UInt32) (content : Bytes) (hv : SomeVersion A)
    (hs : s.status k = some .encrypted) (out : List Bytes) (hr : ((Op.send k content).run E A c s).result = .ok (.texts out)) :
    ∃ K, ∀ content' : Bytes, (noNul content').length = (noNul content).length →
      ∃ pad : Bytes, pad.length = (noNul content).length ∧
        (Op.send k content').run (repad E K pad) A c s = (Op.send k content).run E A c s := by
  obtain ⟨i, hl, hi⟩ := status_lookup hs
  have hcond : ¬ (A.policy.has REQUIRE_ENCRYPTION = true ∧ Status.encrypted = .plaintext) := by simp
  have run : ∀ (E : Env) (content : Bytes), (Op.send k content).run E A c s = perform (Session.sendOn E A c k content) .texts s := by
    intro E content
    simp only [Op.run, perform, Session.send, not_disabled hv, Bool.false_eq_true, if_false, StM.bind_run, StM.gets, hs, if_neg hcond]
  have step : ∀ (E E' : Env) (content content' : Bytes),
      i.state.prepare E 0 (noNul content) (c.rnd.sub 0) c.now = i.state.prepare E' 0 (noNul content') (c.rnd.sub 0) c.now →
      perform (Session.sendOn E A c k content) .texts s = perform (Session.sendOn E' A c k content') .texts s := by
    intro E E' content content' h
    simp only [perform, Session.sendOn, existing, hl, entry, Option.getD_some, StM.bind_run, StM.gets, Instance.send, Instance.onState, dropByValue_noNul, h]
  rcases prepare_encrypts (E := E) (c := c) (fl := 0) (content := noNul content) (rnd := c.rnd.sub 0) hi with hp | ⟨m, s', hp, -⟩
  · exfalso
    rw [run] at hr
    simp only [perform, Session.sendOn, existing, hl, entry, Option.getD_some, StM.bind_run, StM.gets, Instance.send, Instance.onState, dropByValue_noNul] at hr
    cases hx : i.state.prepare E 0 (noNul content) (c.rnd.sub 0) c.now with
    | mk r x =>
      rw [hx] at hp hr
      simp only at hp
      subst hp
      simp at hr
  · obtain ⟨K, hK⟩ := prepare_repad hi hp
    refine ⟨K, fun content' hlen => ?_⟩
    obtain ⟨pad, h1, h2⟩ := hK _ hlen
    refine ⟨pad, h1, ?_⟩
    rw [run, run]
    exact step _ _ _ _ (h2.trans hp.symm)

end Otrr.Props
