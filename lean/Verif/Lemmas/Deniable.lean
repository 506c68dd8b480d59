import Verif.Spec.Deniable
import Verif.Lemmas.SessionReport
import Verif.Lemmas.Hist3
import Verif.Lemmas.Hist4
import Verif.Lemmas.Pair4
/-! # Facts about rewritten data messages -/

namespace Otrr
open KeyManager Spec

theorem xorStream_getElem? (ks : Nat → UInt8) (d : Bytes) (i : Nat) : (xorStream ks d)[i]? = d[i]?.map (· ^^^ ks i) := by
  simp [xorStream, List.getElem?_mapIdx]

theorem xorStream_retext {ks : Nat → UInt8} {c text text' rest : Bytes} (h : xorStream ks c = text ++ rest)
    (hl : text'.length = text.length) : xorStream ks (retext c text text') = text' ++ rest := by
  have hc : ∀ i, c[i]?.map (· ^^^ ks i) = (text ++ rest)[i]? := fun i => by rw [← xorStream_getElem?, h]
  have hlen : c.length = text.length + rest.length := by
    have := congrArg List.length h
    simpa [xorStream] using this
  apply List.ext_getElem?
  intro i
  rw [xorStream_getElem?]
  by_cases hi : i < text.length
  · have h1 : i < c.length := by omega
    have h2 : i < text'.length := by omega
    have := hc i
    rw [List.getElem?_append_left hi, List.getElem?_eq_getElem h1, List.getElem?_eq_getElem hi, Option.map_some, Option.some.injEq] at this
    rw [List.getElem?_append_left h2, retext, List.getElem?_append_left (by simp; omega)]
    simp only [List.getElem?_zipWith, List.getElem?_take, hi, if_true, List.getElem?_eq_getElem h1, List.getElem?_eq_getElem hi,
      List.getElem?_eq_getElem h2, Option.map_some]
    rw [← this]
    congr 1
    generalize c[i] = x
    generalize text'[i] = y
    generalize ks i = z
    rw [UInt8.xor_comm x z, UInt8.xor_assoc z x y, ← UInt8.xor_assoc x z, UInt8.xor_comm x z, UInt8.xor_assoc z x, ← UInt8.xor_assoc x x]
    simp [UInt8.xor_comm z y, UInt8.xor_assoc]
  · have hz : (List.zipWith (· ^^^ ·) (c.take text.length) (List.zipWith (· ^^^ ·) text text')).length = text.length := by
      simp; omega
    have := hc i
    rw [List.getElem?_append_right (by omega)] at this
    rw [List.getElem?_append_right (by omega), retext, List.getElem?_append_right (by omega), hz, List.getElem?_drop, hl, ← this]
    congr 2
    omega

theorem retext_length {c text text' : Bytes} (hl : text'.length = text.length) : (retext c text text').length = c.length := by
  simp [retext]; omega

theorem takeWhile_nul {t rest : Bytes} (ht : ∀ b ∈ t, b ≠ 0) (hr : rest = [] ∨ rest.head? = some 0) :
    (t ++ rest).takeWhile (· != 0) = t ∧ (t ++ rest).dropWhile (· != 0) = rest := by
  induction t with
  | nil =>
    rcases hr with rfl | hr
    · exact ⟨rfl, rfl⟩
    · cases rest with
      | nil => cases hr
      | cons b r =>
        simp only [List.head?_cons, Option.some.injEq] at hr
        subst hr
        exact ⟨rfl, rfl⟩
  | cons b t ih =>
    have hb : b ≠ 0 := ht b (by simp)
    obtain ⟨i1, i2⟩ := ih fun b hb => ht b (by simp [hb])
    simp [hb, i1, i2]

/-- Another text without NUL before the rest of the plaintext is read likewise. -/
theorem parse_retext {plain text : Bytes} {tlvs : List TLV} (h : parseMessage plain = .ok (.confidential text tlvs)) :
    ∃ rest, plain = text ++ rest ∧ ∀ text' : Bytes, (∀ b ∈ text', b ≠ 0) →
      parseMessage (text' ++ rest) = .ok (.confidential text' tlvs) := by
  have hd : plain = plain.takeWhile (· != 0) ++ plain.dropWhile (· != 0) := (List.takeWhile_append_dropWhile ..).symm
  have hhead : plain.dropWhile (· != 0) = [] ∨ (plain.dropWhile (· != 0)).head? = some 0 := by
    cases hx : plain.dropWhile (· != 0) with
    | nil => exact .inl rfl
    | cons b r =>
      right
      have := List.head_dropWhile_not (p := (· != 0)) (l := plain) (by rw [hx]; nofun)
      simp only [hx, List.head_cons] at this
      simpa using this
  simp only [parseMessage, Res.bind_eq_ok] at h
  obtain ⟨⟨c, ts⟩, h1, h2⟩ := h
  obtain ⟨s, h1⟩ := runDec_ok.mp h1
  simp only [readPayloadParts, Dec.bind_eq_ok] at h1
  obtain ⟨c', s1, e1, ts', s2, e2, _, s3, e3, e4⟩ := h1
  simp only [readNullTerminated, Res.ok.injEq, Prod.mk.injEq] at e1
  simp only [Dec.pure_run, Res.ok.injEq, Prod.mk.injEq] at e4
  obtain ⟨⟨rfl, rfl⟩, rfl⟩ := e4
  dsimp only at h2
  split at h2
  · cases h2
  rename_i hn
  simp only [Res.pure_def, Res.ok.injEq, PMessage.confidential.injEq] at h2
  obtain ⟨rfl, rfl⟩ := h2
  refine ⟨plain.dropWhile (· != 0), by rw [← e1.1]; exact hd, fun text' ht => ?_⟩
  obtain ⟨w1, w2⟩ := takeWhile_nul ht hhead
  have hrd : readPayloadParts (text' ++ plain.dropWhile (· != 0)) =
      .ok ((text', ts'.filter fun t => t.typ != TLV_TYPE_0_PADDING), s3) := by
    rw [readPayloadParts, Dec.bind_ok (a := text') (s' := s1) (by rw [readNullTerminated, w1, w2, e1.2]), Dec.bind_ok e2, Dec.bind_ok e3]
    rfl
  simp only [parseMessage, runDec, hrd, Res.bind_ok]
  rw [if_neg hn]
  rfl

/-! ## OTRv3 -/

theorem handle3_ok {E : Env} {m : DataMessage} {ad fresh text : Bytes} {tlvs : List TLV} {last : Bool} {x x' : Enc3} :
    Enc3.handle E m ad fresh x = (.ok (.confidential text tlvs, last), x') ↔
      last = false ∧ ∃ plain k, decrypt3 E m ad fresh x.keys = (.ok plain, k) ∧ parseMessage plain = .ok (.confidential text tlvs) ∧
        x' = { x with keys := k } := by
  unfold Enc3.handle
  cases hd : decrypt3 E m ad fresh x.keys with
  | mk r k =>
    cases r with
    | panic => simp
    | err e => simp
    | ok plain =>
      dsimp only
      cases hp : parseMessage plain with
      | panic => simp [hp]
      | err e => simp [hp]
      | ok msg =>
        cases msg with
        | confidentialFinished c => simp [hp]
        | confidential c t =>
          simp only [Prod.mk.injEq, Res.ok.injEq, PMessage.confidential.injEq]
          constructor
          · rintro ⟨⟨⟨rfl, rfl⟩, rfl⟩, rfl⟩
            exact ⟨rfl, _, _, ⟨rfl, rfl⟩, hp, rfl⟩
          · rintro ⟨rfl, _, _, ⟨rfl, rfl⟩, hp', rfl⟩
            rw [hp] at hp'
            simp only [Res.ok.injEq, PMessage.confidential.injEq] at hp'
            exact ⟨⟨hp', rfl⟩, rfl⟩

theorem KeyIn.append {n : Nat} {mac b : Bytes} (h : KeyIn n mac b) {ks : List Bytes} (hk : ∀ k ∈ ks, k.length = n) :
    KeyIn n mac (b ++ ks.flatten) := by
  obtain ⟨macs, ⟨a, ha⟩, h2, h3⟩ := h
  refine ⟨macs ++ ks, ⟨a, ?_⟩, ?_, by simp [h3]⟩
  · rw [List.flatten_append, ← List.append_assoc, ha]
  · intro m hm
    rcases List.mem_append.mp hm with hm | hm
    · exact h2 m hm
    · exact hk m hm

/-- The key is kept to be revealed. -/
def Kept (k : KeyManager) (mac : Bytes) : Prop :=
  (∀ m ∈ k.usedMacs, m.length = 20) ∧ (mac ∈ k.usedMacs ∨ KeyIn 20 mac k.oldMacs)

theorem Kept.rotated {k : KeyManager} {mac : Bytes} (h : Kept k mac) : Kept k.rotated mac := by
  obtain ⟨h0, h1⟩ := h
  refine ⟨by simp [KeyManager.rotated, resetCounters, revealUsed], .inr ?_⟩
  have e : k.rotated.oldMacs = k.oldMacs ++ k.usedMacs.flatten := by simp [KeyManager.rotated, resetCounters, revealUsed]
  rw [e]
  rcases h1 with h1 | h1
  · exact ⟨k.usedMacs, List.suffix_append _ _, h0, h1⟩
  · exact KeyIn.append h1 h0

theorem Kept.useMac {k : KeyManager} {mac : Bytes} (h : Kept k mac) {mac' : Bytes} (hm : mac'.length = 20) : Kept (k.useMac mac') mac := by
  unfold KeyManager.useMac
  split
  · exact h
  · refine ⟨fun x hx => ?_, h.2.imp_left fun h => by simp [h]⟩
    rcases List.mem_append.mp hx with hx | hx
    · exact h.1 x hx
    · rw [List.mem_singleton.mp hx]; exact hm

theorem Kept.ackStep {k : KeyManager} {mac : Bytes} (h : Kept k mac) {G : DHGroup} {r : UInt32} {fresh : Bytes} : Kept (k.ackStep G r fresh) mac := by
  unfold KeyManager.ackStep
  split
  · exact h
  · exact Kept.rotated (k := { k with ours := _ }) h

theorem Kept.regStep {k : KeyManager} {mac : Bytes} (h : Kept k mac) {id : UInt32} {key : Nat} : Kept (k.regStep id key) mac := by
  unfold KeyManager.regStep
  split
  · exact h
  · exact Kept.rotated (k := { k with theirs := _ }) h

theorem kept_use {k : KeyManager} (hk : k.WF) {mac : Bytes} (hm : mac.length = 20) : Kept (k.useMac mac) mac := by
  unfold KeyManager.useMac
  split
  · exact ⟨hk.used, .inl (by assumption)⟩
  · refine ⟨fun x hx => ?_, .inl (by simp)⟩
    rcases List.mem_append.mp hx with hx | hx
    · exact hk.used x hx
    · rw [List.mem_singleton.mp hx]; exact hm

theorem kept_afterAccept {E : Env} {k : KeyManager} (hk : k.WF) {m : DataMessage} {mac fresh : Bytes} (hm : mac.length = 20) :
    Kept (k.afterAccept E m mac fresh) mac :=
  Kept.regStep (Kept.ackStep (k := (k.useMac mac).seeCtr m.ctr) (kept_use hk hm))

theorem handle3_forge {E : Env} {d : DataMessage} {snd rcv : UInt32} {fresh text : Bytes} {tlvs : List TLV} {last : Bool} {x x' : Enc3}
    (hk : x.keys.WF) (hd : Decoded d)
    (h : Enc3.handle E d (authenticatorData 3 snd rcv d) fresh x = (.ok (.confidential text tlvs, last), x')) :
    last = false ∧ ∃ mac : Bytes, mac.length = 20 ∧ d.authenticator = E.hmacSha1 mac (authenticatorData 3 snd rcv d) ∧ Kept x'.keys mac ∧
      ∀ text' : Bytes, text'.length = text.length → (∀ b ∈ text', b ≠ 0) →
        anyNonzero (forge3 E mac snd rcv d text text').authenticator = true →
        Enc3.handle E (forge3 E mac snd rcv d text text') (authenticatorData 3 snd rcv (forge3 E mac snd rcv d text text')) fresh x =
          (.ok (.confidential text' tlvs, false), x') := by
  obtain ⟨rfl, plain, k, h1, h2, rfl⟩ := handle3_ok.mp h
  obtain ⟨sec, a1, a2, a3, a4, a5, a6, a7, a8, a9, a10, a11, a12, a13, a14⟩ := (decrypt3_ok hk.theirCtr hd.2.2).mp h1
  obtain ⟨rest, b1, b2⟩ := parse_retext h2
  refine ⟨rfl, sec.receiverMac E, hmac_len sec, a7, a14 ▸ kept_afterAccept hk (hmac_len sec), fun text' hl hz hn => ?_⟩
  refine handle3_ok.mpr ⟨rfl, text' ++ rest, k, ?_, b2 text' hz, rfl⟩
  refine (decrypt3_ok hk.theirCtr (m := forge3 E (sec.receiverMac E) snd rcv d text text') hd.2.2).mpr
    ⟨sec, a1, a2, a3, a4, a5, a6, rfl, hn, a9, a10, a11, a12, ?_, a14⟩
  exact (xorStream_retext (a13.symm.trans b1) hl).symm

theorem Kept.decrypt {E : Env} {m : DataMessage} {ad fresh : Bytes} {k k' : KeyManager} {mac : Bytes} {r : Res Bytes} (hk : k.WF) (hm : Decoded m)
    (h : decrypt3 E m ad fresh k = (r, k')) (hr : r ≠ .panic) (hkept : Kept k mac) : Kept k' mac := by
  have hu : ∀ sec : DataSecrets, Kept (k.useMac (sec.receiverMac E)) mac := fun sec => hkept.useMac (hmac_len sec)
  have ha : ∀ sec : DataSecrets, Kept (((k.useMac (sec.receiverMac E)).seeCtr m.ctr).ackStep E.dh m.receiverKeyid fresh) mac := fun sec =>
    Kept.ackStep (k := (k.useMac (sec.receiverMac E)).seeCtr m.ctr) (hu sec)
  rcases decrypt3_cases (E := E) m ad fresh hm.1 hm.2.1 hm.2.2 hk with ⟨_, h1 | ⟨h1, _⟩⟩ | ⟨_, _, h1⟩ |
    ⟨_, sec, _, ⟨_, h1⟩ | ⟨_, _, ⟨_, h1⟩ | ⟨_, ⟨_, h1⟩ | ⟨_, _, ⟨_, _, h1⟩ | ⟨_, h1⟩⟩⟩⟩⟩ <;> rw [h] at h1
  · rw [(Prod.mk.inj h1).2]; exact hkept
  · exact absurd (Prod.mk.inj h1).1 hr
  · exact absurd (Prod.mk.inj h1).1 hr
  · rw [(Prod.mk.inj h1).2]; exact hkept
  · rw [(Prod.mk.inj h1).2]; exact hu sec
  · exact absurd h1 hr
  · rw [(Prod.mk.inj h1).2]; exact ha sec
  · rw [(Prod.mk.inj h1).2]; exact Kept.regStep (ha sec)

/-- A key that is kept to be revealed is kept until a message reveals it. -/
theorem kept3_life {E : Env} {x y : Enc3} {h : List Ev3} {mac : Bytes} (hk : x.keys.WF) (hl : Life3 E x h y) (h0 : Kept x.keys mac) :
    Kept y.keys mac ∨ ∃ m, Ev3.sent m ∈ h ∧ KeyIn 20 mac m.revealed := by
  induction hl with
  | start => exact .inl h0
  | @send h s s' flags plain m hl he ih =>
    rcases ih with ih | ⟨m', h1, h2⟩
    · obtain ⟨h1, _⟩ := encrypt_keys he
      obtain ⟨sec, _, _, _, hm, _, _, _, hk'⟩ := encrypt3_ok h1
      rcases ih with ⟨u, ih | ih⟩
      · exact .inl ⟨by rw [hk']; exact u, .inl (by rw [hk']; exact ih)⟩
      · refine .inr ⟨m, by simp, ?_⟩
        have : m.revealed = s.keys.oldMacs := (congrArg DataMessage.revealed hm).trans rfl
        rw [this]
        exact ih
    · exact .inr ⟨m', by simp [h1], h2⟩
  | @recv h s s' m ad fresh r hl hd he hr ih =>
    rcases ih with ih | ⟨m', h1, h2⟩
    · obtain ⟨rd, hdec, _, _, hp, _⟩ := handle_decrypt he
      exact .inl (ih.decrypt (life3_wf hk hl) hd hdec fun e => hr (hp e))
    · exact .inr ⟨m', by simp [h1], h2⟩

/-! ## OTRv4 -/

theorem handle4_ok {E : Env} {m : DataMessage4} {ad text : Bytes} {now : Nat} {tlvs : List TLV} {last : Bool} {x x' : Enc4} :
    Enc4.handle E m ad now x = (.ok (.confidential text tlvs, last), x') ↔
      last = false ∧ ∃ plain d, decrypt4 E m ad now x.ratchet = .ok (plain, d) ∧ parseMessage plain = .ok (.confidential text tlvs) ∧
        x' = { x with ratchet := d } := by
  unfold Enc4.handle Enc4.onRatchet
  cases hd : decrypt4 E m ad now x.ratchet with
  | panic => simp
  | err e => simp
  | ok y =>
    obtain ⟨plain, d⟩ := y
    dsimp only
    cases hp : parseMessage plain with
    | panic => simp [hp]
    | err e => simp [hp]
    | ok msg =>
      cases msg with
      | confidentialFinished c => simp [hp]
      | confidential c t =>
        simp only [Prod.mk.injEq, Res.ok.injEq, PMessage.confidential.injEq]
        constructor
        · rintro ⟨⟨⟨rfl, rfl⟩, rfl⟩, rfl⟩
          exact ⟨rfl, _, _, ⟨rfl, rfl⟩, hp, rfl⟩
        · rintro ⟨rfl, _, _, ⟨rfl, rfl⟩, hp', rfl⟩
          rw [hp] at hp'
          simp only [Res.ok.injEq, PMessage.confidential.injEq] at hp'
          exact ⟨⟨hp', rfl⟩, rfl⟩

theorem handle4_forge {E : Env} {d : DataMessage4} {snd rcv : UInt32} {now : Nat} {text : Bytes} {tlvs : List TLV} {last : Bool}
    {x x' : Enc4} (h : Enc4.handle E d (authenticatorData4 4 snd rcv d) now x = (.ok (.confidential text tlvs, last), x')) :
    last = false ∧ ∃ mac : Bytes, mac.length = 64 ∧ d.authenticator = kdf2 E 64 0x18 mac (authenticatorData4 4 snd rcv d) ∧
      KeyIn 64 mac x'.ratchet.reveals ∧
      ∀ text' : Bytes, text'.length = text.length → (∀ b ∈ text', b ≠ 0) →
        anyNonzero (forge4 E mac snd rcv d text text').authenticator = true →
        Enc4.handle E (forge4 E mac snd rcv d text text') (authenticatorData4 4 snd rcv (forge4 E mac snd rcv d text text')) now x =
          (.ok (.confidential text' tlvs, false), x') := by
  obtain ⟨rfl, plain, r, h1, h2, rfl⟩ := handle4_ok.mp h
  obtain ⟨rest, b1, b2⟩ := parse_retext h2
  simp only [decrypt4, Res.bind_eq_ok, Res.pure_def, Res.ok.injEq, Prod.mk.injEq] at h1
  obtain ⟨s, c1, q, c2, keys, c3, _, c4, s', c5, rfl, rfl⟩ := h1
  obtain ⟨k', e1, e2, e3, e4, e5⟩ := DoubleRatchet.confirm_ok c5
  simp only at e1 e3
  rw [c3] at e1
  simp only [Res.ok.injEq] at e1
  subst e1
  obtain ⟨c6, c7⟩ := compareBytes_ok_iff.mp c4
  have hk64 : keys.mac.length = 64 := by
    obtain ⟨_, _, k3⟩ := Ratchet.keys_ok c3
    rw [k3]
    exact E.shake_len _ _
  refine ⟨rfl, keys.mac, hk64, c6.symm, ⟨[keys.mac], ?_, by simpa using hk64, by simp⟩, fun text' hl hz hn => ?_⟩
  · rw [e2]
    exact ⟨s.reveals, by simp⟩
  · refine handle4_ok.mpr ⟨rfl, text' ++ rest, s', ?_, b2 text' hz, rfl⟩
    have hs : speculate4 E (forge4 E keys.mac snd rcv d text text') now x.ratchet = .ok s := c1
    have hc : compareBytes (kdf2 E 64 0x18 keys.mac (authenticatorData4 4 snd rcv (forge4 E keys.mac snd rcv d text text')))
        (forge4 E keys.mac snd rcv d text text').authenticator = .ok () := compareBytes_ok_iff.mpr ⟨rfl, hn⟩
    simp only [decrypt4, Res.bind_eq_ok, Res.pure_def, Res.ok.injEq, Prod.mk.injEq]
    exact ⟨s, hs, q, c2, keys, c3, (), hc, s', c5, xorStream_retext b1 hl, rfl⟩

/-- A key that is kept to be revealed is kept until a message reveals it. -/
theorem kept4_life {E : Env} {x y : Enc4} {h : List Ev4} {mac : Bytes} (hl : Life4 E x h y) (h0 : KeyIn 64 mac x.ratchet.reveals) :
    KeyIn 64 mac y.ratchet.reveals ∨ ∃ m, Ev4.sent m ∈ h ∧ KeyIn 64 mac m.revealed := by
  have hrot : ∀ {d d' : DoubleRatchet}, d.rotateSenderChain E = .ok d' → d'.reveals = d.reveals := by
    intro d d' h
    simp only [DoubleRatchet.rotateSenderChain, Res.bind_eq_ok, Res.pure_def, Res.ok.injEq] at h
    obtain ⟨_, _, _, _, rfl⟩ := h
    rfl
  induction hl with
  | start => exact .inl h0
  | @send h s s' flags plain rnd now m hl he ih =>
    rcases ih with ih | ⟨m', h1, h2⟩
    · unfold Enc4.encrypt Enc4.onRatchet at he
      split at he
      · rename_i a d' hx
        simp only [Prod.mk.injEq, Res.ok.injEq] at he
        obtain ⟨rfl, rfl⟩ := he
        obtain ⟨rv, d1, keys, g1, _, g3, _, g5⟩ := encrypt4_ok hx
        have hrv : a.revealed = rv := by rw [g3]; rfl
        rcases ratchetForSend_ok g1 with ⟨_, h1, _⟩ | ⟨_, _, rfl⟩
        · refine .inr ⟨a, by simp, ?_⟩
          rw [hrv, h1]
          exact ih
        · exact .inl (by rw [hrot g5]; exact ih)
      · cases he
      · cases he
    · exact .inr ⟨m', by simp [h1], h2⟩
  | @bye h s s' rnd now m hl he ih =>
    rcases ih with ih | ⟨m', h1, h2⟩
    · unfold Enc4.disconnect Enc4.onRatchet at he
      split at he
      · rename_i a d' hx
        simp only [Prod.mk.injEq, Res.ok.injEq] at he
        obtain ⟨rfl, rfl⟩ := he
        obtain ⟨rv, d1, keys, g1, _, g3, _, g5⟩ := encrypt4_ok hx
        have hrv : a.revealed = rv := by rw [g3]; rfl
        refine .inr ⟨a, by simp, ?_⟩
        rw [hrv]
        rcases ratchetForSend_ok g1 with ⟨_, h1, _⟩ | ⟨_, h1, _⟩
        · rw [h1, List.append_nil]; exact ih
        · rw [h1]; exact ih
      · cases he
      · cases he
    · exact .inr ⟨m', by simp [h1], h2⟩
  | @recv h s s' m ad now r hl he hr ih =>
    rcases ih with ih | ⟨m', h1, h2⟩
    · refine .inl ?_
      rcases handle4_cases he hr with ⟨_, rfl, _⟩ | ⟨plain, d', g1, rfl, _⟩
      · exact ih
      · obtain ⟨sp, keys, g2, _, g4, _, _, _, _, rfl⟩ := decrypt4_ok g1
        have hsp : sp.reveals = s.ratchet.reveals := by
          rcases speculate4_ok g2 with ⟨_, _, _, _, hr⟩ | ⟨_, _, rfl⟩
          · obtain ⟨_, _, _, _, _, _, _⟩ := DoubleRatchet.rotateReceiver_ok hr
            simp_all
          · rfl
        have hk64 : keys.mac.length = 64 := by
          obtain ⟨_, _, k3⟩ := Ratchet.keys_ok g4
          rw [k3]
          exact E.shake_len _ _
        show KeyIn 64 mac (sp.reveals ++ keys.mac)
        rw [hsp]
        have := KeyIn.append ih (ks := [keys.mac]) (by simpa using hk64)
        simpa using this
    · exact .inr ⟨m', by simp [h1], h2⟩

end Otrr
