import Verif.Lemmas.Pair3
import Verif.Lemmas.Messages
import Verif.Spec.Toy
/-! C37 to C43: OTRv3 data messages. -/

namespace Otrr.Props
open Otrr Otrr.Spec

/-! ## A concrete conversation, used for examples and counterexamples -/

namespace Toy3

def dummy : Enc3 := ⟨0, 0, ⟨⟨⟨⟨0, 0⟩, ⟨0, 0⟩⟩, 0⟩, ⟨⟨0, 0⟩, 0⟩, [], [], [], []⟩⟩
def st (x : Res Enc3) : Enc3 := match x with | .ok s => s | _ => dummy
def msg (x : Res DataMessage) : DataMessage := match x with | .ok s => s | _ => default

/-- Two clients after the key exchange. -/
@[irreducible] def a0 : Enc3 := st (Enc3.new toyEnv 256 257 (DH.Keypair.new toyEnv.dh 3) (DH.Keypair.new toyEnv.dh 7).pub (smallRand 1))
@[irreducible] def b0 : Enc3 := st (Enc3.new toyEnv 257 256 (DH.Keypair.new toyEnv.dh 7) (DH.Keypair.new toyEnv.dh 3).pub (smallRand 6))

def snd (p : Bytes) (s : Enc3) : Res DataMessage × Enc3 := Enc3.encrypt toyEnv 0 p s
def rcv (m : DataMessage) (s r : Enc3) (fresh : Bytes) : Res (PMessage × Bool) × Enc3 :=
  Enc3.handle toyEnv m (authenticatorData 3 s.our r.our m) fresh r

/-- `a` sends "hi" and "ho". -/
@[irreducible] def m1 : DataMessage := msg (snd [104, 105] a0).1
@[irreducible] def a1 : Enc3 := (snd [104, 105] a0).2
@[irreducible] def m2 : DataMessage := msg (snd [104, 111] a1).1
@[irreducible] def a2 : Enc3 := (snd [104, 111] a1).2
/-- `b` receives both. -/
@[irreducible] def b1 : Enc3 := (rcv m1 a2 b0 [7]).2
@[irreducible] def b2 : Enc3 := (rcv m2 a2 b1 [8]).2
/-- `b` replies "ok", which `a` receives. -/
@[irreducible] def n1 : DataMessage := msg (snd [111, 107] b2).1
@[irreducible] def b3 : Enc3 := (snd [111, 107] b2).2
@[irreducible] def a3 : Enc3 := (rcv n1 b3 a2 [9]).2
/-- `a` sends "b". -/
@[irreducible] def m3 : DataMessage := msg (snd [98] a3).1
@[irreducible] def a4 : Enc3 := (snd [98] a3).2
/-- Or `b` replies after the first message already and then receives the second; `a` receives the reply
and sends three more messages of which `b` receives the last and replies again. -/
@[irreducible] def n2 : DataMessage := msg (snd [111, 107] b1).1
@[irreducible] def d1 : Enc3 := (snd [111, 107] b1).2
@[irreducible] def d2 : Enc3 := (rcv m2 a2 d1 [8]).2
@[irreducible] def e1 : Enc3 := (rcv n2 d1 a2 [9]).2
@[irreducible] def m4 : DataMessage := msg (snd [98] (snd [98] (snd [98] e1).2).2).1
@[irreducible] def d3 : Enc3 := (rcv m4 a2 d2 [4]).2
@[irreducible] def n3 : DataMessage := msg (snd [111, 107] d3).1
@[irreducible] def d4 : Enc3 := (snd [111, 107] d3).2

theorem hi : Composed [104, 105] [] [104, 105] := ⟨by decide, by decide, .inr ⟨rfl, rfl⟩⟩

theorem good : GoodGroup toyEnv.dh := by constructor <;> decide

theorem new_a0 : Enc3.new toyEnv 256 257 (DH.Keypair.new toyEnv.dh 3) (DH.Keypair.new toyEnv.dh 7).pub (smallRand 1) = .ok a0 := by
  decide +kernel
theorem new_b0 : Enc3.new toyEnv 257 256 (DH.Keypair.new toyEnv.dh 7) (DH.Keypair.new toyEnv.dh 3).pub (smallRand 6) = .ok b0 := by
  decide +kernel
theorem snd_m1 : Enc3.encrypt toyEnv 0 [104, 105] a0 = (.ok m1, a1) := by decide +kernel
theorem snd_m2 : Enc3.encrypt toyEnv 0 [104, 111] a1 = (.ok m2, a2) := by decide +kernel
theorem rcv_m1 : Enc3.handle toyEnv m1 (authenticatorData 3 a2.our b0.our m1) [7] b0 =
    (.ok (.confidential [104, 105] [], false), b1) := by decide +kernel
theorem rcv_m2 : Enc3.handle toyEnv m2 (authenticatorData 3 a2.our b1.our m2) [8] b1 =
    (.ok (.confidential [104, 111] [], false), b2) := by decide +kernel
theorem snd_n1 : Enc3.encrypt toyEnv 0 [111, 107] b2 = (.ok n1, b3) := by decide +kernel
theorem rcv_n1 : Enc3.handle toyEnv n1 (authenticatorData 3 b3.our a2.our n1) [9] a2 =
    (.ok (.confidential [111, 107] [], false), a3) := by decide +kernel
theorem snd_m3 : Enc3.encrypt toyEnv 0 [98] a3 = (.ok m3, a4) := by decide +kernel

theorem reach0 : Reach3 toyEnv ⟨a0, b0, [], []⟩ := .start new_a0 new_b0
theorem reach1 : Reach3 toyEnv ⟨a1, b0, [(m1, [104, 105])], []⟩ := .sendA reach0 snd_m1
theorem reach2 : Reach3 toyEnv ⟨a2, b0, [(m1, [104, 105]), (m2, [104, 111])], []⟩ := .sendA reach1 snd_m2
theorem reach3 : Reach3 toyEnv ⟨a2, b1, [(m2, [104, 111])], []⟩ := .recvB reach2 rfl rcv_m1 (by simp)
theorem reach4 : Reach3 toyEnv ⟨a2, b2, [], []⟩ := .recvB reach3 rfl rcv_m2 (by simp)
theorem reach5 : Reach3 toyEnv ⟨a2, b3, [], [(n1, [111, 107])]⟩ := .sendB reach4 snd_n1
theorem reach6 : Reach3 toyEnv ⟨a3, b3, [], []⟩ := .recvA reach5 rfl rcv_n1 (by simp)
theorem reach7 : Reach3 toyEnv ⟨a4, b3, [(m3, [98])], []⟩ := .sendA reach6 snd_m3

theorem decoded_m1 : Decoded m1 := by unfold Decoded; decide +kernel
theorem decoded_m2 : Decoded m2 := by unfold Decoded; decide +kernel

theorem fresh_a0 : Fresh3 toyEnv a0 := ⟨_, _, _, _, _, new_a0⟩
theorem fresh_b0 : Fresh3 toyEnv b0 := ⟨_, _, _, _, _, new_b0⟩

end Toy3
open Toy3

/-! ## C37 -/

/-- C37, partial: whatever two clients did before, the oldest message under way is decrypted to the text
and TLVs that were sent, unless its counter is not larger than the last counter the receiver saw; then it
is reported unreadable.  There is no other outcome, in particular no crash.  Missing: the counter may be
too small for a message that was delivered in order, see `C37_violated`. -/
theorem C37_partial (E : Env) (hG : GoodGroup E.dh) (s : Pair3) (hs : Reach3 E s) (m : DataMessage)
    (plain text : Bytes) (tlvs : List TLV) (rest : List (DataMessage × Bytes)) (hab : s.ab = (m, plain) :: rest)
    (hc : Composed text tlvs plain) (fresh : Bytes) :
    (beNat s.b.keys.theirCtr < beNat m.ctr →
      (Enc3.handle E m (authenticatorData 3 s.a.our s.b.our m) fresh s.b).1 = .ok (received text tlvs)) ∧
    (beNat m.ctr ≤ beNat s.b.keys.theirCtr →
      (Enc3.handle E m (authenticatorData 3 s.a.our s.b.our m) fresh s.b).1 =
        .err (.unreadableMessage s.b.their)) := by
  obtain ⟨KA, KB, l, g⟩ := reach3_link hG hs
  rw [hab] at l
  rcases l.deliver hG g fresh with ⟨h, mac, _, hd⟩ | ⟨h, mac, _, _, hd⟩
  · exact ⟨fun h' => by omega, fun _ => by rw [handle_of_err hd]⟩
  · exact ⟨fun _ => by rw [handle_of_decrypt hc hd], fun h' => by omega⟩

/-- The same in the other direction. -/
theorem C37_partial' (E : Env) (hG : GoodGroup E.dh) (s : Pair3) (hs : Reach3 E s) (m : DataMessage)
    (plain text : Bytes) (tlvs : List TLV) (rest : List (DataMessage × Bytes)) (hba : s.ba = (m, plain) :: rest)
    (hc : Composed text tlvs plain) (fresh : Bytes) :
    (beNat s.a.keys.theirCtr < beNat m.ctr →
      (Enc3.handle E m (authenticatorData 3 s.b.our s.a.our m) fresh s.a).1 = .ok (received text tlvs)) ∧
    (beNat m.ctr ≤ beNat s.a.keys.theirCtr →
      (Enc3.handle E m (authenticatorData 3 s.b.our s.a.our m) fresh s.a).1 =
        .err (.unreadableMessage s.a.their)) :=
  C37_partial E hG s.swap (reach3_swap hs) m plain text tlvs rest hba hc fresh

/-- C37 for clients that take turns: every message is delivered intact. -/
theorem C37_turns (E : Env) (hG : GoodGroup E.dh) (a b : Enc3) (h : Turns3 E a b) (flags : UInt8)
    (plain text : Bytes) (tlvs : List TLV) (hc : Composed text tlvs plain) (m : DataMessage) (a' : Enc3)
    (he : Enc3.encrypt E flags plain a = (.ok m, a')) (fresh : Bytes) :
    (Enc3.handle E m (authenticatorData 3 a.our b.our m) fresh b).1 = .ok (received text tlvs) := by
  obtain ⟨hr, _, _, h0⟩ := turns3_inv hG h
  obtain ⟨KA, KB, l, _⟩ := reach3_link hG hr
  obtain ⟨hk, o1, _⟩ := encrypt_keys he
  obtain ⟨_, _, _, hv, _⟩ := encrypt3_adv l.wf hk
  have := (C37_partial E hG _ (.sendA hr he) m plain text tlvs [] rfl hc fresh).1 (by simp only; omega)
  simp only [o1] at this
  exact this

/-- C37 until the sender receives its first message: every message is delivered intact. -/
theorem C37_before_reply (E : Env) (hG : GoodGroup E.dh) (s : Pair3) (hs : Early3 E s) (m : DataMessage)
    (plain text : Bytes) (tlvs : List TLV) (rest : List (DataMessage × Bytes)) (hab : s.ab = (m, plain) :: rest)
    (hc : Composed text tlvs plain) (fresh : Bytes) :
    (Enc3.handle E m (authenticatorData 3 s.a.our s.b.our m) fresh s.b).1 = .ok (received text tlvs) :=
  (C37_partial E hG s (early3_reach hs) m plain text tlvs rest hab hc fresh).1
    ((early3_ctr hG hs).1 (m, plain) (by rw [hab]; simp)).1

/-- C37 does not hold: `a` sends two messages, `b` receives them and replies, `a` receives the reply and
sends a third message.  All were delivered in order, yet the third is unreadable. -/
theorem C37_violated : ∃ (E : Env) (s : Pair3) (m : DataMessage) (text plain : Bytes) (tlvs : List TLV),
    GoodGroup E.dh ∧ Reach3 E s ∧ s.ab = [(m, plain)] ∧ Composed text tlvs plain ∧
    ∀ fresh, (Enc3.handle E m (authenticatorData 3 s.a.our s.b.our m) fresh s.b).1 =
      .err (.unreadableMessage s.b.their) := by
  have hc : Composed [98] [] [98] := ⟨by decide, by decide, .inr ⟨rfl, rfl⟩⟩
  refine ⟨toyEnv, ⟨a4, b3, [(m3, [98])], []⟩, m3, [98], [98], [], good, reach7, rfl, hc, fun fresh => ?_⟩
  exact (C37_partial toyEnv good _ reach7 m3 [98] [98] [] [] rfl hc fresh).2 (by decide +kernel)

/-- The hypotheses of `C37_partial`, `C37_turns` and `C37_before_reply` can be met; a D-H group with the
constants of the code qualifies. -/
example : GoodGroup dh1536 ∧ GoodGroup toyEnv.dh := by
  refine ⟨⟨?_, ?_⟩, good⟩ <;> decide +kernel

example : (Enc3.handle toyEnv m1 (authenticatorData 3 a1.our b0.our m1) [7] b0).1 =
    .ok (.confidential [104, 105] [], false) := by
  have := (C37_partial toyEnv good _ reach1 m1 _ _ _ [] rfl hi [7]).1 (by decide +kernel)
  rw [this, received, if_neg (by simp)]
  rfl

example : Turns3 toyEnv b1 a1 :=
  .turn (r := .ok (.confidential [104, 105] [], false)) (.start new_a0 new_b0) snd_m1 (fresh := [7])
    (by decide +kernel) (by simp)

example : (Enc3.handle toyEnv m2 (authenticatorData 3 a2.our b0.our m2) [8] b0).1 =
    .ok (received [104, 111] []) := by
  have h : Early3 toyEnv ⟨a2, b0, [(m1, [104, 105]), (m2, [104, 111])], []⟩ := .sendA (.sendA (.start new_a0 new_b0) snd_m1) snd_m2
  exact C37_before_reply toyEnv good _ (.loseB h rfl) m2 [104, 111] [104, 111] [] [] rfl
    ⟨by decide, by decide, .inr ⟨rfl, rfl⟩⟩ [8]

/-! ## C38 -/

/-- C38: over the life of a session no two sent data messages use the same sender key, receiver key and
counter. -/
theorem C38_counters (E : Env) (s₀ s : Enc3) (h : List Ev3) (hf : Fresh3 E s₀) (hl : Life3 E s₀ h s) :
    (sentCounters h).Nodup :=
  (life3_counters (fresh3_wf hf).1 hl).1

/-- A session with two sent messages. -/
theorem Toy3.life_a : Life3 toyEnv a0 ([] ++ [.sent m1] ++ [.sent m2]) a2 := .send (.send .start snd_m1) snd_m2
example : (sentCounters ([] ++ [.sent m1] ++ [.sent m2])).Nodup := C38_counters _ _ _ _ fresh_a0 life_a
example : sentCounters ([] ++ [.sent m1] ++ [.sent m2]) =
    [(1, 1, [0, 0, 0, 0, 0, 0, 0, 1]), (1, 1, [0, 0, 0, 0, 0, 0, 0, 2])] := by decide +kernel

/-! ## C39 -/

/-- C39, partial: a message is accepted at most twice.  Missing: it may be accepted a second time, see
`C39_violated`. -/
theorem C39_partial (E : Env) (s₀ s : Enc3) (h : List Ev3) (hf : Fresh3 E s₀) (hl : Life3 E s₀ h s)
    (m : DataMessage) : h.countP (fun e => decide (Accepts m e)) ≤ 2 := by
  have := (life3_accepts (fresh3_wf hf).1 hl m 0 (by omega) (by omega)).2.1
  omega

/-- C39, partial: a message that neither made us acknowledge a new own key nor introduced a new key of the
peer is never accepted again. -/
theorem C39_no_new_keys_partial (E : Env) (s₀ s s' s'' : Enc3) (h h' : List Ev3) (hf : Fresh3 E s₀)
    (hl : Life3 E s₀ h s) (m : DataMessage) (hm : Decoded m) (ad fresh : Bytes) (x : PMessage × Bool)
    (ha : Enc3.handle E m ad fresh s = (.ok x, s'))
    (h1 : s'.keys.ours.acknowledged = s.keys.ours.acknowledged) (h2 : s'.keys.theirs.id = s.keys.theirs.id)
    (hl' : Life3 E s' h' s'') : ∀ e ∈ h', ¬ Accepts m e := by
  have hwf := life3_wf (fresh3_wf hf).1 hl
  obtain ⟨_, _, _, hack, hid, hsame⟩ := handle_accepts hwf hm ha
  have hwf' := (handle_adv hwf hm ha (by simp)).wf
  have := (life3_accepts hwf' hl' m 1 (by omega) fun _ =>
    ⟨by omega, by rw [hack], fun _ _ => by rw [hsame h1 h2]⟩).1 rfl
  intro e he hA
  have := List.countP_eq_zero.mp this e he
  simp [hA] at this

/-- C39 does not hold: `b` accepts the first message of `a` twice. -/
theorem C39_violated : ∃ (E : Env) (s₀ s : Enc3) (m : DataMessage) (ad : Bytes) (x : PMessage × Bool),
    Fresh3 E s₀ ∧ Life3 E s₀ [.got m ad (.ok x), .got m ad (.ok x)] s := by
  have l1 := Life3.recv (E := toyEnv) (s₀ := b0) .start decoded_m1 rcv_m1 (by simp)
  have r2 : Enc3.handle toyEnv m1 (authenticatorData 3 a2.our b0.our m1) [7] b1 =
    (.ok (.confidential [104, 105] [], false), (rcv m1 a2 b1 [7]).2) := by decide +kernel
  exact ⟨toyEnv, b0, _, m1, _, _, fresh_b0, Life3.recv l1 decoded_m1 r2 (by simp)⟩

/-- The second message of `a` introduced no new keys. -/
example : ∀ s h, Life3 toyEnv b2 h s → ∀ e ∈ h, ¬ Accepts m2 e := fun s h hl =>
  C39_no_new_keys_partial toyEnv b0 b1 b2 s _ h fresh_b0 (.recv .start decoded_m1 rcv_m1 (by simp)) m2 decoded_m2 _ _ _ rcv_m2
    (by decide +kernel) (by decide +kernel) hl

/-! ## C40 -/

/-- C40: a message whose authenticator is not the MAC under the keys it names is reported unreadable and
leaves the session unchanged.  The stated panics are those of C43, met before the MAC is looked at: a
D-H public key of ours equals one of the peer, or our key ids are exhausted. -/
theorem C40_forged (E : Env) (s₀ s : Enc3) (h : List Ev3) (hf : Fresh3 E s₀) (hl : Life3 E s₀ h s)
    (m : DataMessage) (hm : Decoded m) (ad fresh : Bytes)
    (hmac : ∀ ours theirs sec, s.keys.ours.select m.receiverKeyid = .ok ours →
      s.keys.theirs.select m.senderKeyid = .ok theirs → dataSecrets E ours theirs = .ok sec →
      m.authenticator ≠ E.hmacSha1 (sec.receiverMac E) ad) :
    Enc3.handle E m ad fresh s = (.err (.unreadableMessage s.their), s) ∨
    (Enc3.handle E m ad fresh s = (.panic, s) ∧
      (s.keys.ours.acknowledged.toNat = 4294967295 ∨
        (s.keys.ours.keys.get m.receiverKeyid).pub = s.keys.theirs.keys.get m.senderKeyid)) := by
  have hwf := life3_wf (fresh3_wf hf).1 hl
  rcases decrypt3_cases (E := E) m ad fresh hm.1 hm.2.1 hm.2.2 hwf with
    ⟨_, h1 | ⟨h1, h2⟩⟩ | ⟨_, h2, h1⟩ | ⟨hw, sec, hsec, ⟨_, h1⟩ | ⟨ha, _⟩⟩
  · exact .inl (by rw [handle_of_err h1])
  · exact .inr ⟨by simp only [Enc3.handle, h1], .inl h2⟩
  · exact .inr ⟨by simp only [Enc3.handle, h1], .inr h2⟩
  · exact .inl (by rw [handle_of_err h1])
  · exact absurd ha (hmac _ _ sec (ours_select_ok.mpr ⟨hm.2.1, hw.2, rfl⟩)
      (theirs_select_ok.mpr ⟨hm.1, hwf.id, hw.1, rfl⟩) hsec)

/-- A message with one changed byte. -/
example : Enc3.handle toyEnv { m1 with encrypted := [117, 34] } (authenticatorData 3 256 257 { m1 with encrypted := [117, 34] })
    [7] b0 = (.err (.unreadableMessage 256), b0) := by
  have hf := C40_forged toyEnv b0 b0 [] fresh_b0 .start { m1 with encrypted := [117, 34] } decoded_m1
    (authenticatorData 3 256 257 { m1 with encrypted := [117, 34] }) [7] (by
      intro ours theirs sec h1 h2 h3
      have e1 : b0.keys.ours.select m1.receiverKeyid = .ok ⟨7, 13⟩ := by decide +kernel
      have e2 : b0.keys.theirs.select m1.senderKeyid = .ok 8 := by decide +kernel
      obtain rfl := Res.ok.inj (e1.symm.trans h1)
      obtain rfl := Res.ok.inj (e2.symm.trans h2)
      have e3 : (match dataSecrets toyEnv ⟨7, 13⟩ 8 with
        | .ok sec => decide (m1.authenticator ≠ toyEnv.hmacSha1 (sec.receiverMac toyEnv)
          (authenticatorData 3 256 257 { m1 with encrypted := [117, 34] }))
        | _ => false) = true := by decide +kernel
      rw [h3] at e3
      exact of_decide_eq_true e3)
  have e4 : b0.their = 256 := by decide +kernel
  rw [e4] at hf
  rcases hf with h | ⟨_, h | h⟩
  · exact h
  · exact absurd h (by decide +kernel)
  · exact absurd h (by decide +kernel)

/-! ## C41 -/

/-- C41, partial: every key a client reveals was used to verify the authenticator of a message that it
received earlier.  Missing: that message may have been rejected for its counter, keys may be revealed
twice and are accepted after they were revealed, see `C41_violated`. -/
theorem C41_partial (E : Env) (s₀ s : Enc3) (h : List Ev3) (m : DataMessage) (hf : Fresh3 E s₀)
    (hl : Life3 E s₀ (h ++ [.sent m]) s) :
    ∃ macs : List Bytes, m.revealed = macs.flatten ∧ ∀ mac ∈ macs, mac.length = 20 ∧
      ∃ m' ad r, Ev3.got m' ad r ∈ h ∧ m'.authenticator = E.hmacSha1 mac ad := by
  generalize hx : h ++ [Ev3.sent m] = hh at hl
  cases hl with
  | start => simp at hx
  | send hl he =>
    obtain ⟨rfl, h2⟩ := List.append_inj' hx rfl
    simp only [List.cons.injEq, Ev3.sent.injEq, and_true] at h2
    subst h2
    obtain ⟨hwf, _, _, hm⟩ := fresh3_wf hf
    obtain ⟨_, macs, hold, hv⟩ := life3_macs hwf hm hl
    obtain ⟨sec, _, _, _, hm, _⟩ := encrypt3_ok (encrypt_keys he).1
    refine ⟨macs, ?_, hv⟩
    rw [← hold]
    exact (congrArg DataMessage.revealed hm).trans rfl
  | recv hl hd hh hr =>
    obtain ⟨_, h2⟩ := List.append_inj' hx rfl
    simp at h2

/-- C41 does not hold: `b` reveals a MAC key, then accepts a message authenticated by it, and later
reveals the key again. -/
theorem C41_violated : ∃ (E : Env) (s₀ s : Enc3) (m m' m'' n n' : DataMessage) (ad ad' ad'' : Bytes)
    (x x' x'' : PMessage × Bool) (mac other : Bytes), Fresh3 E s₀ ∧
    Life3 E s₀ [.got m ad (.ok x), .sent n, .got m' ad' (.ok x'), .got m'' ad'' (.ok x''), .sent n'] s ∧
    mac.length = 20 ∧ n.revealed = mac ∧ m'.authenticator = E.hmacSha1 mac ad' ∧ n'.revealed = mac ++ other := by
  have l1 := Life3.recv (E := toyEnv) (s₀ := b0) .start decoded_m1 rcv_m1 (by simp)
  have s2 : Enc3.encrypt toyEnv 0 [111, 107] b1 = (.ok n2, d1) := by decide +kernel
  have r3 : Enc3.handle toyEnv m2 (authenticatorData 3 a2.our d1.our m2) [8] d1 =
    (.ok (.confidential [104, 111] [], false), d2) := by decide +kernel
  have hd : Decoded m4 := by unfold Decoded; decide +kernel
  have r4 : Enc3.handle toyEnv m4 (authenticatorData 3 a2.our d2.our m4) [4] d2 =
    (.ok (.confidential [98] [], false), d3) := by decide +kernel
  have s5 : Enc3.encrypt toyEnv 0 [111, 107] d3 = (.ok n3, d4) := by decide +kernel
  exact ⟨toyEnv, b0, _, m1, m2, m4, n2, n3, _, _, _, _, _, _, n2.revealed, n3.revealed.drop 20, fresh_b0,
    Life3.send (Life3.recv (Life3.recv (Life3.send l1 s2) decoded_m2 r3 (by simp)) hd r4 (by simp)) s5,
    by decide +kernel, rfl, by decide +kernel, by decide +kernel⟩

example : n2.revealed ≠ [] ∧ ∃ macs : List Bytes, n2.revealed = macs.flatten ∧ ∀ mac ∈ macs, mac.length = 20 ∧
    ∃ m' ad r, Ev3.got m' ad r ∈ [Ev3.got m1 (authenticatorData 3 a2.our b0.our m1) (.ok (.confidential [104, 105] [], false))] ∧
      m'.authenticator = toyEnv.hmacSha1 mac ad :=
  ⟨by decide +kernel, C41_partial toyEnv b0 d1 _ n2 fresh_b0
    (Life3.send (Life3.recv .start decoded_m1 rcv_m1 (by simp)) (by decide +kernel : Enc3.encrypt toyEnv 0 [111, 107] b1 = (.ok n2, d1)))⟩

/-! ## C42 -/

/-- C42: the own keys that can be named are the acknowledged one and the next. -/
theorem C42_own_window (k : KeypairRotation) (id : UInt32) (hid : id ≠ 0) :
    (∃ key, k.select id = .ok key) ↔ id = k.acknowledged ∨ id.toNat = k.acknowledged.toNat + 1 := by
  constructor
  · rintro ⟨key, h⟩
    obtain ⟨_, h | h, _⟩ := ours_select_ok.mp h
    · exact .inl h.symm
    · exact .inr h
  · rintro (h | h)
    · exact ⟨_, ours_select_ok.mpr ⟨hid, .inl h.symm, rfl⟩⟩
    · exact ⟨_, ours_select_ok.mpr ⟨hid, .inr h, rfl⟩⟩

/-- C42: the keys of the peer that can be named are the two most recent. -/
theorem C42_peer_window (k : PublicKeyRotation) (hk : k.id ≠ 0) (id : UInt32) (hid : id ≠ 0) :
    (∃ key, k.select id = .ok key) ↔ id = k.id ∨ id.toNat + 1 = k.id.toNat := by
  constructor
  · rintro ⟨key, h⟩
    obtain ⟨_, _, h | h, _⟩ := theirs_select_ok.mp h
    · exact .inr h.symm
    · exact .inl h.symm
  · rintro (h | h)
    · exact ⟨_, theirs_select_ok.mpr ⟨hid, hk, .inr h.symm, rfl⟩⟩
    · exact ⟨_, theirs_select_ok.mpr ⟨hid, hk, .inl h.symm, rfl⟩⟩

/-- C42: in every session a message that names another key is unreadable and has no effect.  (If our key
ids are exhausted, looking for the next key panics, see C43.) -/
theorem C42_outside (E : Env) (s₀ s : Enc3) (h : List Ev3) (hf : Fresh3 E s₀) (hl : Life3 E s₀ h s)
    (m : DataMessage) (hm : Decoded m) (ad fresh : Bytes)
    (ho : ¬ ((m.receiverKeyid = s.keys.ours.acknowledged ∨
        m.receiverKeyid.toNat = s.keys.ours.acknowledged.toNat + 1) ∧
      (m.senderKeyid = s.keys.theirs.id ∨ m.senderKeyid.toNat + 1 = s.keys.theirs.id.toNat))) :
    Enc3.handle E m ad fresh s = (.err (.unreadableMessage s.their), s) ∨
    (Enc3.handle E m ad fresh s = (.panic, s) ∧ s.keys.ours.acknowledged.toNat = 4294967295) := by
  have hwf := life3_wf (fresh3_wf hf).1 hl
  have hno : ¬ s.keys.InWindow m := by
    rintro ⟨h1, h2⟩
    refine ho ⟨?_, ?_⟩
    · rcases h2 with h | h
      · exact .inl h.symm
      · exact .inr h
    · rcases h1 with h | h
      · exact .inr h.symm
      · exact .inl h.symm
  rcases decrypt3_cases (E := E) m ad fresh hm.1 hm.2.1 hm.2.2 hwf with ⟨_, h1 | ⟨h1, h2⟩⟩ | ⟨hw, _⟩ | ⟨hw, _⟩
  · exact .inl (by rw [handle_of_err h1])
  · exact .inr ⟨by simp only [Enc3.handle, h1], h2⟩
  · exact absurd hw hno
  · exact absurd hw hno

/-- C42: sessions start with ids 1; with every event each id stays or grows by one. -/
theorem C42_ids (E : Env) (s₀ s s' : Enc3) (h : List Ev3) (e : Ev3) (hf : Fresh3 E s₀) (hl : Life3 E s₀ h s)
    (hs : Life3 E s [e] s') :
    s₀.keys.ours.acknowledged = 1 ∧ s₀.keys.theirs.id = 1 ∧
    (s'.keys.ours.acknowledged.toNat = s.keys.ours.acknowledged.toNat ∨
      s'.keys.ours.acknowledged.toNat = s.keys.ours.acknowledged.toNat + 1) ∧
    (s'.keys.theirs.id.toNat = s.keys.theirs.id.toNat ∨
      s'.keys.theirs.id.toNat = s.keys.theirs.id.toNat + 1) := by
  obtain ⟨hwf0, h1, h2, _⟩ := fresh3_wf hf
  have hwf := life3_wf hwf0 hl
  have ha : Adv s.keys s'.keys := by
    generalize hx : [e] = l at hs
    cases hs with
    | start => simp at hx
    | @send l s1 _ flags plain m hl he =>
      have : l = [] := by cases l <;> simp_all
      subst this
      have hx1 : s1 = s := by
        generalize hy : ([] : List Ev3) = l at hl
        cases hl with
        | start => rfl
        | send => simp at hy
        | recv => simp at hy
      subst hx1
      exact (encrypt3_adv hwf (encrypt_keys he).1).1
    | @recv l s1 _ m ad fresh r hl hd hh hr =>
      have : l = [] := by cases l <;> simp_all
      subst this
      have hx1 : s1 = s := by
        generalize hy : ([] : List Ev3) = l at hl
        cases hl with
        | start => rfl
        | send => simp at hy
        | recv => simp at hy
      subst hx1
      exact handle_adv hwf hd hh hr
  have := ha.ack_le
  have := ha.ack_le'
  have := ha.id_le
  have := ha.id_le'
  exact ⟨h1, h2, by omega, by omega⟩

/-- C42: after a message was accepted, the keys it named are in use: its receiver key is acknowledged and
the key it announced is the most recent of the peer. -/
theorem C42_accepted (E : Env) (s₀ s s' : Enc3) (h : List Ev3) (hf : Fresh3 E s₀) (hl : Life3 E s₀ h s)
    (m : DataMessage) (hm : Decoded m) (ad fresh : Bytes) (x : PMessage × Bool)
    (ha : Enc3.handle E m ad fresh s = (.ok x, s')) :
    s'.keys.ours.acknowledged = m.receiverKeyid ∧ s'.keys.theirs.id.toNat = m.senderKeyid.toNat + 1 ∧
    s'.keys.theirs.select s'.keys.theirs.id = .ok m.dhY := by
  have hwf := life3_wf (fresh3_wf hf).1 hl
  obtain ⟨_, _, hlt, h4, h5, _⟩ := handle_accepts hwf hm ha
  refine ⟨h4, h5, ?_⟩
  obtain ⟨rd, hd, _, _, _, _, _, hok, _⟩ := handle_decrypt ha
  obtain ⟨p, rfl⟩ := hok x rfl
  obtain ⟨sec, _, _, _, w1, _, _, _, _, _, _, _, hkey, _, hk'⟩ := (decrypt3_ok hwf.theirCtr hm.2.2).mp hd
  have hwf' := (handle_adv hwf hm ha (by simp)).wf
  refine theirs_select_ok.mpr ⟨hwf'.id, hwf'.id, .inr rfl, ?_⟩
  obtain ⟨e1, _⟩ := add_one_ne_zero hlt
  rw [hk', KeyManager.afterAccept, KeyManager.regStep]
  by_cases hc : s.keys.theirs.id = m.senderKeyid + 1
  · rw [if_pos (by rw [ackStep_theirs, KeyManager.seeCtr, useMac_theirs]; exact hc), ackStep_theirs,
      KeyManager.seeCtr, useMac_theirs]
    exact (hkey (by rw [hc, e1])).symm
  · rw [if_neg (by rw [ackStep_theirs, KeyManager.seeCtr, useMac_theirs]; exact hc), ackStep_theirs,
      KeyManager.seeCtr, useMac_theirs]
    simp only [KeyManager.rotated, KeyManager.revealUsed, KeyManager.resetCounters]
    have hid : s.keys.theirs.id = m.senderKeyid := by
      rcases w1 with h | h
      · exact absurd (UInt32.toNat_inj.mp (by rw [h, e1])) hc
      · exact h
    rw [← Slots.getNext_eq (a := s.keys.theirs.id) _ (by rw [e1, hid]), Slots.getNext_setNext]

/-- A message naming key 3 of the peer is out of reach for a fresh session. -/
example : Enc3.handle toyEnv { m1 with senderKeyid := 3 } [] [7] b0 = (.err (.unreadableMessage 256), b0) := by
  have hd : Decoded { m1 with senderKeyid := 3 } := ⟨by decide, decoded_m1.2⟩
  have e : b0.their = 256 := by decide +kernel
  have := C42_outside toyEnv b0 b0 [] fresh_b0 .start { m1 with senderKeyid := 3 } hd [] [7] (by decide +kernel)
  rw [e] at this
  rcases this with h | ⟨_, h⟩
  · exact h
  · exact absurd h (by decide +kernel)

example := C42_ids toyEnv b0 b0 b1 [] _ fresh_b0 .start (.recv .start decoded_m1 rcv_m1 (by simp))
example := C42_accepted toyEnv b0 b0 b1 [] fresh_b0 .start m1 decoded_m1 _ _ _ rcv_m1

/-! ## C43 -/

/-- C43 does not hold: sending an empty message panics in every state. -/
theorem C43_violated_empty (E : Env) (s : Enc3) (flags : UInt8) : (Enc3.encrypt E flags [] s).1 = .panic := by
  generalize h : Enc3.encrypt E flags [] s = x
  obtain ⟨r, s'⟩ := x
  obtain ⟨hk, _⟩ := encrypt_keys h
  cases r with
  | panic => rfl
  | ok m =>
    obtain ⟨sec, _, _, _, hm, hnz, _⟩ := encrypt3_ok hk
    have : m.encrypted = [] := (congrArg DataMessage.encrypted hm).trans rfl
    rw [this] at hnz
    simp [anyNonzero, allZero] at hnz
  | err e => exact absurd hk (encrypt3_ne_err _)

/-- C43 does not hold: a peer that shares the keys of the session makes the client panic by announcing the
next D-H key 0. -/
theorem C43_violated_key : ∃ (E : Env) (s₀ : Enc3) (m : DataMessage) (ad : Bytes), Fresh3 E s₀ ∧ Decoded m ∧
    m.dhY = 0 ∧ ∀ fresh, (Enc3.handle E m ad fresh s₀).1 = .panic := by
  let mac := match dataSecrets toyEnv (b0.keys.ours.keys.get 1) (b0.keys.theirs.keys.get 1) with
    | .ok sec => sec.receiverMac toyEnv
    | _ => []
  let m : DataMessage := { m1 with dhY := 0, authenticator := toyEnv.hmacSha1 mac [1] }
  have hd : Decoded m := decoded_m1
  refine ⟨toyEnv, b0, m, [1], fresh_b0, hd, rfl, fun fresh => handle_of_panic ?_⟩
  have hsec : dataSecrets toyEnv (b0.keys.ours.keys.get 1) (b0.keys.theirs.keys.get 1) ≠ .panic := by decide +kernel
  have h1 : m.senderKeyid = 1 := by decide +kernel
  have h2 : m.receiverKeyid = 1 := by decide +kernel
  have hw : b0.keys.InWindow m := by
    unfold KeyManager.InWindow
    rw [h1, h2]
    decide +kernel
  rcases decrypt3_cases (E := toyEnv) m [1] fresh hd.1 hd.2.1 hd.2.2 (fresh3_wf fresh_b0).1 with
    ⟨h, _⟩ | ⟨_, _, h⟩ | ⟨_, sec, hs, ⟨h, _⟩ | ⟨_, _, ⟨h, _⟩ | ⟨_, ⟨_, h⟩ | ⟨_, h, _⟩⟩⟩⟩
  · exact absurd hw h
  · rw [h]
  · exfalso
    rw [h1, h2] at hs
    apply h
    have hmac : mac = sec.receiverMac toyEnv := by simp only [mac, hs]
    exact ⟨by rw [← hmac], by decide +kernel⟩
  · exact absurd h (by decide +kernel)
  · exact h
  · exact absurd rfl h

/-- C43, partial: sending fails only by a panic, and exactly if the ciphertext is all zero (always so for the
empty message), the own key ids or the counter are exhausted, a D-H public key of ours equals the peer's,
or an authenticator or the MAC keys to reveal happen to be zero. -/
theorem C43_send_partial (E : Env) (s₀ s : Enc3) (h : List Ev3) (hf : Fresh3 E s₀) (hl : Life3 E s₀ h s)
    (flags : UInt8) (plain : Bytes) :
    (¬ Stuck3 E s flags plain → ∃ m s', Enc3.encrypt E flags plain s = (.ok m, s')) ∧
    (Stuck3 E s flags plain → (Enc3.encrypt E flags plain s).1 = .panic) := by
  have hwf := life3_wf (fresh3_wf hf).1 hl
  have hlt := beNat_lt s.keys.ourCtr
  rw [hwf.ourCtr] at hlt
  constructor
  · intro hn
    obtain ⟨m, k', hk⟩ := encrypt3_total (E := E) (our := s.our) (their := s.their) (flags := flags) (plain := plain) hwf.ourCtr hwf.old
      (by
        have := s.keys.ours.acknowledged.toNat_lt
        have : s.keys.ours.acknowledged.toNat ≠ 2 ^ 32 - 1 := fun e => hn (.ids e)
        omega)
      (by
        have : beNat s.keys.ourCtr ≠ 2 ^ 64 - 1 := fun e => hn (.counter e)
        omega)
      (fun e => hn (.sameKey e))
      (fun sec ctr h1 h2 => by
        by_contra hx
        obtain ⟨h3, h4⟩ := counterTake_ok h2
        exact hn (.ciphertext h1 (h3.trans hwf.ourCtr) h4 (by simpa using hx)))
      (fun sec ctr h1 h2 => by
        by_contra hx
        obtain ⟨h3, h4⟩ := counterTake_ok h2
        have hack : s.keys.ours.acknowledged.toNat < 4294967295 := by
          have := s.keys.ours.acknowledged.toNat_lt
          have : s.keys.ours.acknowledged.toNat ≠ 2 ^ 32 - 1 := fun e => hn (.ids e)
          omega
        refine hn (.authenticator (id := s.keys.ours.acknowledged + 1) (next := s.keys.ours.keys.getNext s.keys.ours.acknowledged) h1
          (h3.trans hwf.ourCtr) h4 ?_ fun b hb => by_contra fun hz => hx ⟨b, hb, hz⟩)
        have hi : incId s.keys.ours.acknowledged = .ok (s.keys.ours.acknowledged + 1) := by
          rw [incId_ok, UInt32.toNat_add]
          have : (1 : UInt32).toNat = 1 := rfl
          omega
        simp only [KeypairRotation.next, hi, Res.bind_ok, Res.pure_def])
      (by
        by_contra hx
        simp only [not_or] at hx
        exact hn (.macs hx.1 (by simpa using hx.2)))
    exact ⟨m, { s with keys := k' }, by simp only [Enc3.encrypt, hk]⟩
  · intro hs
    cases hk : encrypt3 E s.our s.their flags plain s.keys with
    | mk r k' =>
      have he : Enc3.encrypt E flags plain s = (r, { s with keys := k' }) := by simp only [Enc3.encrypt, hk]
      rw [he]
      cases r with
      | panic => rfl
      | err e => exact absurd hk (encrypt3_ne_err e)
      | ok m =>
        exfalso
        obtain ⟨sec, h1, h2, h3, h4, h5, h6, _, _⟩ := encrypt3_ok hk
        obtain ⟨hl, hv⟩ := counterTake_ok h3
        rw [hwf.ourCtr] at hl
        have uniq : ∀ c : Bytes, c.length = 8 → beNat c = beNat s.keys.ourCtr + 1 → c = m.ctr := fun c e1 e2 =>
          beNat_inj (e1.trans hl.symm) (e2.trans hv.symm)
        have zero : ∀ {d : Bytes}, (∀ b ∈ d, b = 0) → anyNonzero d = true → False := fun h h' => by
          obtain ⟨b, hb, hz⟩ := anyNonzero_iff.mp h'
          exact hz (h b hb)
        cases hs with
        | ids h => omega
        | counter h =>
          have := beNat_lt m.ctr
          rw [hl] at this
          omega
        | sameKey h =>
          rcases dataSecrets_cases E s.keys.ours.current.2 s.keys.theirs.current.2 with ⟨_, h'⟩ | ⟨h', _⟩
          · rw [h1] at h'; cases h'
          · exact h' h
        | macs h h' =>
          rcases encrypt3_macs hk with h'' | h''
          · exact h h''
          · exact zero h' h''
        | ciphertext e1 e2 e3 e4 =>
          rw [h1] at e1
          cases e1
          rw [uniq _ e2 e3] at e4
          rw [h4] at h5
          exact zero e4 h5
        | authenticator e1 e2 e3 e4 e5 =>
          rw [h1] at e1
          cases e1
          rw [uniq _ e2 e3] at e5
          simp only [KeypairRotation.next, Res.bind_eq_ok, Res.pure_def, Res.ok.injEq, Prod.mk.injEq] at e4
          obtain ⟨_, _, _, rfl⟩ := e4
          rw [h4] at h6
          exact zero e5 h6

/-- Both cases occur in one session: it can send a text, and cannot send the empty one. -/
example : ¬ Stuck3 toyEnv a0 0 [104, 105] ∧ Stuck3 toyEnv a0 0 [] := by
  constructor
  · intro h
    have := (C43_send_partial toyEnv a0 a0 [] fresh_a0 .start 0 [104, 105]).2 h
    rw [show Enc3.encrypt toyEnv 0 [104, 105] a0 = _ from snd_m1] at this
    cases this
  · by_contra h
    obtain ⟨m, s', h⟩ := (C43_send_partial toyEnv a0 a0 [] fresh_a0 .start 0 []).1 h
    have := C43_violated_empty toyEnv a0 0
    rw [h] at this
    cases this

/-- C43, partial: receiving a message panics exactly for the three causes of `Fatal3`. -/
theorem C43_receive_partial (E : Env) (s₀ s : Enc3) (h : List Ev3) (hf : Fresh3 E s₀) (hl : Life3 E s₀ h s)
    (m : DataMessage) (hm : Decoded m) (ad fresh : Bytes) : (Enc3.handle E m ad fresh s).1 = .panic ↔ Fatal3 E m ad s := by
  have hwf := life3_wf (fresh3_wf hf).1 hl
  have hcases := decrypt3_cases (E := E) m ad fresh hm.1 hm.2.1 hm.2.2 hwf
  constructor
  · intro hp
    generalize hx : Enc3.handle E m ad fresh s = x at hp
    obtain ⟨r, s'⟩ := x
    simp only at hp
    subst hp
    obtain ⟨rd, hd, _, _, _, hpan, _⟩ := handle_decrypt hx
    have hrd := hpan rfl
    subst hrd
    rcases hcases with
      ⟨hw, h1 | ⟨h1, h2⟩⟩ | ⟨hw, h2, h1⟩ | ⟨hw, sec, hs, ⟨_, h1⟩ | ⟨ha, hz, ⟨_, h1⟩ | ⟨hc, ⟨h2, h1⟩ | ⟨_, _, ⟨_, _, h1⟩ | ⟨_, h1⟩⟩⟩⟩⟩
    · rw [h1] at hd; simp at hd
    · by_cases hk : s.keys.theirs.id.toNat = m.senderKeyid.toNat + 1 ∨ s.keys.theirs.id = m.senderKeyid
      · exact .ids hk.symm h2 fun e => hw ⟨hk, .inl e.symm⟩
      · rw [decrypt3_unknown m ad fresh hm.1 hwf hk] at h1
        cases h1
    · exact .sameKey hw.1.symm hw.2 h2
    · rw [h1] at hd; simp at hd
    · rw [h1] at hd; simp at hd
    · exact .next hw.1.symm hw.2 hs ha (anyNonzero_iff.mp hz) hc h2
    · rw [h1] at hd; simp at hd
    · rw [h1] at hd; simp at hd
  · intro hfat
    refine handle_of_panic ?_
    cases hfat with
    | ids h1 h2 h3 => rw [decrypt3_ids m ad fresh hm.1 hm.2.1 hwf h1.symm h2 h3]
    | sameKey h1 h2 h3 =>
      rcases hcases with ⟨hw, _⟩ | ⟨_, _, h⟩ | ⟨_, sec, hs, _⟩
      · exact absurd ⟨h1.symm, h2⟩ hw
      · rw [h]
      · rcases dataSecrets_cases E (s.keys.ours.keys.get m.receiverKeyid) (s.keys.theirs.keys.get m.senderKeyid) with ⟨_, h'⟩ | ⟨h', _⟩
        · rw [hs] at h'; cases h'
        · exact absurd h3 h'
    | next h1 h2 h3 h4 h5 h6 h7 =>
      rcases hcases with ⟨hw, _⟩ | ⟨_, _, h⟩ | ⟨_, sec, hs, ⟨hn, _⟩ | ⟨_, _, ⟨hn, _⟩ | ⟨_, ⟨_, h⟩ | ⟨hn, hn', _⟩⟩⟩⟩
      · exact absurd ⟨h1.symm, h2⟩ hw
      · rw [h]
      · rw [hs] at h3
        cases h3
        exact absurd ⟨h4, anyNonzero_iff.mpr h5⟩ hn
      · omega
      · exact h
      · rcases h7 with h7 | h7
        · omega
        · exact absurd h7 hn'

/-- Non-vacuity: an authentic message that announces 0 as the next key. -/
example : ∃ (E : Env) (s₀ : Enc3) (m : DataMessage) (ad : Bytes), Fresh3 E s₀ ∧ Life3 E s₀ [] s₀ ∧ Decoded m ∧ Fatal3 E m ad s₀ := by
  obtain ⟨E, s₀, m, ad, h1, h2, _, h3⟩ := C43_violated_key
  exact ⟨E, s₀, m, ad, h1, .start, h2, (C43_receive_partial E s₀ s₀ [] h1 .start m h2 ad []).mp (h3 [])⟩

/-- Every data message that the decoder returns satisfies `Decoded`. -/
theorem decoded_of_read (d rest : Bytes) (m : DataMessage) (h : readDataMessage d = .ok (m, rest)) : Decoded m := by
  simp only [readDataMessage, Dec.bind_eq_ok, Dec.pure_run, Res.ok.injEq, Prod.mk.injEq] at h
  obtain ⟨_, _, _, sk, _, hs, rk, _, hr, _, _, _, ctr, _, hc, _, _, _, _, _, _, _, _, _, rfl, _⟩ := h
  exact ⟨readKeyid_ne hs, readKeyid_ne hr, readCtr_len hc⟩

end Otrr.Props
