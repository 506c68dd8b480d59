import Verif.Lemmas.Pair4
import Verif.Lemmas.Toy
import Verif.Spec.Toy
/-! C44 to C49: OTRv4 data messages. -/

namespace Otrr.Props
open Otrr Otrr.Spec

/-! ## A concrete conversation, used for examples and counterexamples -/

namespace Toy4

def zeroPt : Point := ⟨0, 1⟩
def noMixed : Mixed := ⟨⟨0, zeroPt⟩, ⟨0, 0⟩, zeroPt, 0, [], []⟩
def noRatchet : DoubleRatchet := ⟨0, noMixed, [], ⟨[], 0⟩, ⟨[], 0⟩, .sender, 0, 0, []⟩
def mx (x : Res Mixed) : Mixed := match x with | .ok s => s | _ => noMixed
def dr (x : Res DoubleRatchet) : DoubleRatchet := match x with | .ok s => s | _ => noRatchet
def msg (x : Res DataMessage4) : DataMessage4 := match x with | .ok s => s | _ => default

def newA : Res Mixed := Mixed.new toyEnv ⟨3, Point.mul toyEnv.curve toyEnv.curve.G 3⟩ (DH.Keypair.new toyEnv.dh3 3)
  (Point.mul toyEnv.curve toyEnv.curve.G 5) (DH.Keypair.new toyEnv.dh3 7).pub
def newB : Res Mixed := Mixed.new toyEnv ⟨5, Point.mul toyEnv.curve toyEnv.curve.G 5⟩ (DH.Keypair.new toyEnv.dh3 7)
  (Point.mul toyEnv.curve toyEnv.curve.G 3) (DH.Keypair.new toyEnv.dh3 3).pub

/-- Two clients after the key exchange. -/
@[irreducible] def sa : Mixed := mx newA
@[irreducible] def sb : Mixed := mx newB
@[irreducible] def rb : DoubleRatchet := dr ((DoubleRatchet.init toyEnv .receiver sb (kdf toyEnv 64 0x0b [1, 2, 3]) 0).rotateSender toyEnv (smallRand 10) 0)
@[irreducible] def a0 : Enc4 := ⟨256, 257, DoubleRatchet.init toyEnv .sender sa (kdf toyEnv 64 0x0b [1, 2, 3]) 0⟩
@[irreducible] def b0 : Enc4 := ⟨257, 256, rb⟩

def snd (p : Bytes) (k : Nat) (s : Enc4) : Res DataMessage4 × Enc4 := Enc4.encrypt toyEnv 0 p (smallRand k) 0 s
def rcv (m : DataMessage4) (s r : Enc4) : Res (PMessage × Bool) × Enc4 :=
  Enc4.handle toyEnv m (authenticatorData4 4 s.our r.our m) 0 r

/-- `b` sends "hi" and "ho". -/
@[irreducible] def n1 : DataMessage4 := msg (snd [104, 105] 2 b0).1
@[irreducible] def b1 : Enc4 := (snd [104, 105] 2 b0).2
@[irreducible] def n2 : DataMessage4 := msg (snd [104, 111] 2 b1).1
@[irreducible] def b2 : Enc4 := (snd [104, 111] 2 b1).2
/-- `a` receives both. -/
@[irreducible] def a1 : Enc4 := (rcv n1 b2 a0).2
@[irreducible] def a2 : Enc4 := (rcv n2 b2 a1).2
/-- `a` replies "ok", which `b` receives. -/
@[irreducible] def m1 : DataMessage4 := msg (snd [111, 107] 3 a2).1
@[irreducible] def a3 : Enc4 := (snd [111, 107] 3 a2).2
@[irreducible] def b3 : Enc4 := (rcv m1 a3 b2).2
/-- Or `a` replies already after the first message. -/
@[irreducible] def m2 : DataMessage4 := msg (snd [111, 107] 3 a1).1
@[irreducible] def a4 : Enc4 := (snd [111, 107] 3 a1).2

theorem new_a : newA = .ok sa := by decide +kernel
theorem new_b : newB = .ok sb := by decide +kernel
theorem rot_b : (DoubleRatchet.init toyEnv .receiver sb (kdf toyEnv 64 0x0b [1, 2, 3]) 0).rotateSender toyEnv (smallRand 10) 0 = .ok b0.ratchet := by
  decide +kernel
theorem ratchet_a : a0.ratchet = DoubleRatchet.init toyEnv .sender sa (kdf toyEnv 64 0x0b [1, 2, 3]) 0 := by decide +kernel
theorem snd_n1 : Enc4.encrypt toyEnv 0 [104, 105] (smallRand 2) 0 b0 = (.ok n1, b1) := by decide +kernel
theorem snd_n2 : Enc4.encrypt toyEnv 0 [104, 111] (smallRand 2) 0 b1 = (.ok n2, b2) := by decide +kernel
theorem rcv_n1 : Enc4.handle toyEnv n1 (authenticatorData4 4 b2.our a0.our n1) 0 a0 =
    (.ok (.confidential [104, 105] [], false), a1) := by decide +kernel
theorem rcv_n2 : Enc4.handle toyEnv n2 (authenticatorData4 4 b2.our a1.our n2) 0 a1 =
    (.ok (.confidential [104, 111] [], false), a2) := by decide +kernel
theorem snd_m1 : Enc4.encrypt toyEnv 0 [111, 107] (smallRand 3) 0 a2 = (.ok m1, a3) := by decide +kernel
theorem rcv_m1 : Enc4.handle toyEnv m1 (authenticatorData4 4 a3.our b2.our m1) 0 b2 =
    (.ok (.confidential [111, 107] [], false), b3) := by decide +kernel
theorem snd_m2 : Enc4.encrypt toyEnv 0 [111, 107] (smallRand 3) 0 a1 = (.ok m2, a4) := by decide +kernel

theorem start4 : Start4 toyEnv a0 b0 :=
  ⟨⟨3, 5, 3, 7, sa, sb, kdf toyEnv 64 0x0b [1, 2, 3], 0, 0, 0, smallRand 10, new_a, new_b, ratchet_a, rot_b, by decide +kernel⟩,
    by decide +kernel⟩

instance (d d' : DoubleRatchet) : Decidable (FreshKey d d') := by unfold FreshKey; infer_instance

theorem goodG : GoodGroup toyEnv.dh3 := by constructor <;> decide
theorem goodC : GoodCurve toyEnv.curve := toy_goodCurve

theorem calm0 : Calm4 toyEnv ⟨a0, b0, [], []⟩ := .start start4
theorem calm1 : Calm4 toyEnv ⟨a0, b1, [], [(n1, [104, 105])]⟩ := .sendB calm0 rfl snd_n1 (by decide +kernel)
theorem calm2 : Calm4 toyEnv ⟨a0, b2, [], [(n1, [104, 105]), (n2, [104, 111])]⟩ :=
  .sendB calm1 rfl snd_n2 (by decide +kernel)
theorem calm3 : Calm4 toyEnv ⟨a1, b2, [], [(n2, [104, 111])]⟩ := .recvA calm2 rfl rcv_n1 (by simp)
theorem calm4 : Calm4 toyEnv ⟨a2, b2, [], []⟩ := .recvA calm3 rfl rcv_n2 (by simp)
theorem calm5 : Calm4 toyEnv ⟨a3, b2, [(m1, [111, 107])], []⟩ := .sendA calm4 rfl snd_m1 (by decide +kernel)
theorem calm6 : Calm4 toyEnv ⟨a3, b3, [], []⟩ := .recvB calm5 rfl rcv_m1 (by simp)
theorem reach4 : Reach4 toyEnv ⟨a4, b2, [(m2, [111, 107])], [(n2, [104, 111])]⟩ :=
  .sendA calm3.reach snd_m2 (by decide +kernel)

theorem fresh_a0 : Fresh4 toyEnv a0 := ⟨[1, 2, 3], _, _, _, _, sa, 0, new_a, .inl ratchet_a⟩
theorem fresh_b0 : Fresh4 toyEnv b0 := ⟨[1, 2, 3], _, _, _, _, sb, 0, new_b, .inr ⟨smallRand 10, 0, rot_b⟩⟩

/-- The life of `a` in this conversation. -/
theorem life_a : Life4 toyEnv a0 ([] ++ [.got n1 (authenticatorData4 4 b2.our a0.our n1) (.ok (.confidential [104, 105] [], false))] ++
    [.got n2 (authenticatorData4 4 b2.our a1.our n2) (.ok (.confidential [104, 111] [], false))] ++ [.sent m1]) a3 :=
  .send (.recv (.recv .start rcv_n1 (by simp)) rcv_n2 (by simp)) snd_m1

/-- The life of `b` in this conversation. -/
theorem life_b : Life4 toyEnv b0 ([] ++ [.sent n1] ++ [.sent n2] ++
    [.got m1 (authenticatorData4 4 a3.our b2.our m1) (.ok (.confidential [111, 107] [], false))]) b3 :=
  .recv (.send (.send .start snd_n1) snd_n2) rcv_m1 (by simp)

end Toy4
open Toy4

/-! ## C44 -/

/-- C44: the (ratchet id, message id) of the messages sent over the life of a session increase strictly. -/
theorem C44_ids (E : Env) (s₀ s : Enc4) (h : List Ev4) (hf : Fresh4 E s₀) (hl : Life4 E s₀ h s) :
    ((sent4 h).map id4).Pairwise idLt := (life4_inv (fresh4_zero hf).1 hl).sentInc

/-- C44: so no two of them carry the same ids. -/
theorem C44_distinct (E : Env) (s₀ s : Enc4) (h : List Ev4) (hf : Fresh4 E s₀) (hl : Life4 E s₀ h s) :
    ((sent4 h).map fun m => (m.i, m.j)).Nodup := by
  have := C44_ids E s₀ s h hf hl
  rw [List.pairwise_map] at this
  rw [List.Nodup, List.pairwise_map]
  refine this.imp ?_
  intro x y hxy heq
  simp only [Prod.mk.injEq] at heq
  simp only [idLt, id4, heq.1, heq.2] at hxy
  omega

example : [(0, 0), (0, 1)].Pairwise idLt := by
  have := C44_ids toyEnv b0 b3 _ fresh_b0 life_b
  have e : (sent4 ([] ++ [.sent n1] ++ [.sent n2] ++
    [.got m1 (authenticatorData4 4 a3.our b2.our m1) (.ok (.confidential [111, 107] [], false))])).map id4 =
      [(0, 0), (0, 1)] := by
    simp only [sent4, List.nil_append, List.cons_append, List.filterMap_cons, List.filterMap_nil, List.map_cons, List.map_nil]
    decide +kernel
  rwa [e] at this

/-! ## C45 -/

/-- C45: a message that is reported unreadable has no effect. -/
theorem C45_no_effect (E : Env) (s s' : Enc4) (m : DataMessage4) (ad : Bytes) (now : Nat) (t : UInt32)
    (h : Enc4.handle E m ad now s = (.err (.unreadableMessage t), s')) : s' = s := by
  rcases handle4_cases h (by simp) with ⟨_, h2, _⟩ | ⟨plain, d', _, _, h3⟩
  · exact h2
  · exfalso
    cases hp : parseMessage plain with
    | ok p => rw [hp] at h3; simp [Res.bind] at h3
    | panic => rw [hp] at h3; simp [Res.bind] at h3
    | err e =>
      rw [hp] at h3
      simp only [Res.bind, Res.err.injEq] at h3
      exact parse_ne_unreadable (hp.trans (by rw [h3]))

/-- C45: a message with any other outcome is for a ratchet that the client can use: the current one with a
message id not used yet, or the next one if the peer's turn has come, with proper keys. -/
theorem C45_current (E : Env) (s s' : Enc4) (m : DataMessage4) (ad : Bytes) (now : Nat) (r : Res (PMessage × Bool))
    (h : Enc4.handle E m ad now s = (r, s')) (hp : r ≠ .panic) (hr : ∀ t, r ≠ .err (.unreadableMessage t)) :
    (m.i.toNat + 1 = s.ratchet.i.toNat ∧ s.ratchet.receiver.id.toNat ≤ m.j.toNat) ∨
    (m.i = s.ratchet.i ∧ s.ratchet.next = .receiver ∧ Point.verify E.curve m.ecdh = .ok () ∧
      (m.i.toNat % 3 = 0 → ∃ v, m.dh = some v ∧ v ≠ s.ratchet.shared.publicDh ∧ DH.verify3 E.dh3 v = .ok ())) := by
  rcases handle4_cases h hp with ⟨h1, _, _⟩ | ⟨plain, d', h1, _, _⟩
  · exact absurd h1 (hr _)
  · obtain ⟨sp, _, h2, _⟩ := decrypt4_ok h1
    rcases speculate4_ok h2 with ⟨s1, s2, s3, s4, s5⟩ | ⟨s1, s2, _⟩
    · right
      obtain ⟨_, _, _, r1, _⟩ := DoubleRatchet.rotateReceiver_ok s5
      obtain ⟨v1, v2, _⟩ := Mixed.next_ok r1
      refine ⟨s1, s2, v1, ?_⟩
      intro hz
      have hz' : (m.i % 3 == 0) = true := by
        rw [beq_iff_eq, ← UInt32.toNat_inj, UInt32.toNat_mod]
        exact hz
      rw [hz'] at s3
      obtain ⟨v, hv⟩ := Option.isSome_iff_exists.mp s3.symm
      rw [hv] at v2 s4
      exact ⟨v, hv, fun e => s4 (by rw [e]), v2⟩
    · exact .inl ⟨s1, s2⟩

/-- C45: and it carries an authenticator, not all zero, made with a MAC key that the client derived: from
the receiving chain key in the current ratchet. -/
theorem C45_authentic (E : Env) (s s' : Enc4) (m : DataMessage4) (ad : Bytes) (now : Nat) (r : Res (PMessage × Bool))
    (h : Enc4.handle E m ad now s = (r, s')) (hp : r ≠ .panic) (hr : ∀ t, r ≠ .err (.unreadableMessage t)) :
    NonZero m.authenticator ∧ ∃ root : Ratchet, Authentic E (m, ad)
      (kdf E 64 0x16 (kdf E 64 0x15 (chainFwd E (m.j.toNat - root.id.toNat) root.chain))) ∧
      (m.i ≠ s.ratchet.i → root = s.ratchet.receiver) ∧
      (m.i = s.ratchet.i → ∃ d, s.ratchet.rotateReceiver E m.ecdh (m.dh.getD s.ratchet.shared.publicDh) now = .ok d ∧
        root = d.receiver) := by
  rcases handle4_cases h hp with ⟨h1, _, _⟩ | ⟨plain, d', h1, _, _⟩
  · exact absurd h1 (hr _)
  · obtain ⟨sp, keys, h2, h3, h4, h5, h6, _⟩ := decrypt4_ok h1
    obtain ⟨_, _, k3⟩ := Ratchet.keys_ok h4
    refine ⟨anyNonzero_iff.mp h6, sp.receiver, ⟨kdf_length _ _ _ _, ?_⟩, ?_, ?_⟩
    · rw [← h5, k3]
    · intro hne
      rcases speculate4_ok h2 with ⟨s1, _⟩ | ⟨_, _, s3⟩
      · exact absurd s1 hne
      · rw [s3]
    · intro heq
      rcases speculate4_ok h2 with ⟨_, _, _, _, s5⟩ | ⟨s1, _, _⟩
      · exact ⟨sp, s5, rfl⟩
      · rw [heq] at s1
        omega

/-- A forged message: its authenticator was changed. -/
example : Enc4.handle toyEnv { n1 with authenticator := List.replicate 64 1 }
    (authenticatorData4 4 b2.our a0.our n1) 0 a0 = (.err (.unreadableMessage 257), a0) := by decide +kernel

example : NonZero n1.authenticator :=
  (C45_authentic toyEnv a0 a1 n1 _ 0 _ rcv_n1 (by simp) (by simp)).1

/-! ## C46 -/

/-- C46: after a message was accepted, a message with the same ids, in particular the same message, is
reported unreadable and has no effect, whenever it is delivered. -/
theorem C46_replay (E : Env) (s₀ s : Enc4) (h : List Ev4) (hf : Fresh4 E s₀) (hl : Life4 E s₀ h s)
    (m₀ m : DataMessage4) (ad₀ ad : Bytes) (hm : (m₀, ad₀) ∈ accepted4 h) (hi : m.i = m₀.i) (hj : m.j = m₀.j) (now : Nat) :
    Enc4.handle E m ad now s = (.err (.unreadableMessage s.their), s) := by
  have hlt := (life4_inv (fresh4_zero hf).1 hl).accLt _ hm
  simp only [idLt, id4, recvPos, ← hi, ← hj] at hlt
  have hsp : speculate4 E m now s.ratchet = .err .userError := by
    unfold speculate4
    rw [if_neg, if_pos]
    · rw [UInt32.lt_iff_toNat_lt, UInt32.lt_iff_toNat_lt, ← UInt32.toNat_inj, predSat_toNat]
      exact hlt
    · rw [gt_iff_lt, UInt32.lt_iff_toNat_lt]
      omega
  have hd : decrypt4 E m ad now s.ratchet = .err .userError := by
    rw [decrypt4, hsp]
    rfl
  simp only [Enc4.handle, Enc4.onRatchet, hd]

example : Enc4.handle toyEnv n1 (authenticatorData4 4 b2.our a0.our n1) 0 a3 = (.err (.unreadableMessage a3.their), a3) :=
  C46_replay toyEnv a0 a3 _ fresh_a0 life_a n1 n1 (authenticatorData4 4 b2.our a0.our n1) _ (by simp [accepted4]) rfl rfl 0

/-! ## C47 -/

theorem handle4_of_ok {E : Env} {m : DataMessage4} {ad plain text : Bytes} {tlvs : List TLV} {now : Nat} {s : Enc4}
    {d : DoubleRatchet} (hc : Composed text tlvs plain) (h : decrypt4 E m ad now s.ratchet = .ok (plain, d)) :
    Enc4.handle E m ad now s = (.ok (received text tlvs), { s with ratchet := d }) := by
  have hp := parseMessage_composed hc
  unfold received
  split
  · rename_i ht
    rw [if_pos ht] at hp
    simp only [Enc4.handle, Enc4.onRatchet, h, hp]
  · rename_i ht
    rw [if_neg ht] at hp
    simp only [Enc4.handle, Enc4.onRatchet, h, hp]

/-- C47, partial: whatever two clients did before, the oldest message under way is decrypted to the text
and TLVs that were sent, unless the receiver is already two ratchets further; then it is reported
unreadable and has no effect.  There is no other outcome, in particular no crash.  Missing: the receiver
may be two ratchets further for a message that was delivered in order, see `C47_violated`. -/
theorem C47_partial (E : Env) (hC : GoodCurve E.curve) (hG : GoodGroup E.dh3) (s : Pair4) (hs : Reach4 E s)
    (m : DataMessage4) (plain text : Bytes) (tlvs : List TLV) (rest : List (DataMessage4 × Bytes))
    (hab : s.ab = (m, plain) :: rest) (hc : Composed text tlvs plain) (now : Nat) :
    (s.b.ratchet.i.toNat ≤ m.i.toNat + 1 →
      (Enc4.handle E m (authenticatorData4 4 s.a.our s.b.our m) now s.b).1 = .ok (received text tlvs)) ∧
    (m.i.toNat + 1 < s.b.ratchet.i.toNat →
      Enc4.handle E m (authenticatorData4 4 s.a.our s.b.our m) now s.b =
        (.err (.unreadableMessage s.b.their), s.b)) := by
  obtain ⟨I, _⟩ := reach4_inv hC hG hs
  rw [hab] at I
  rcases I.recv hC hG now with ⟨h1, h2, _⟩ | ⟨h1, b', h2, _⟩
  · refine ⟨fun h => by simp only at h1; omega, fun _ => ?_⟩
    simp only at h2
    simp only [Enc4.handle, Enc4.onRatchet, h2]
  · refine ⟨fun _ => ?_, fun h => by simp only at h1; omega⟩
    rw [handle4_of_ok hc h2]

theorem reach4_swap_inv {E : Env} {s : Pair4} (hC : GoodCurve E.curve) (hG : GoodGroup E.dh3) (hs : Reach4 E s) :
    PInv E s.b.our s.a.our s.b.ratchet s.a.ratchet s.ba s.ab := (reach4_inv hC hG hs).1.symm

/-- The same in the other direction. -/
theorem C47_partial' (E : Env) (hC : GoodCurve E.curve) (hG : GoodGroup E.dh3) (s : Pair4) (hs : Reach4 E s)
    (m : DataMessage4) (plain text : Bytes) (tlvs : List TLV) (rest : List (DataMessage4 × Bytes))
    (hba : s.ba = (m, plain) :: rest) (hc : Composed text tlvs plain) (now : Nat) :
    (s.a.ratchet.i.toNat ≤ m.i.toNat + 1 →
      (Enc4.handle E m (authenticatorData4 4 s.b.our s.a.our m) now s.a).1 = .ok (received text tlvs)) ∧
    (m.i.toNat + 1 < s.a.ratchet.i.toNat →
      Enc4.handle E m (authenticatorData4 4 s.b.our s.a.our m) now s.a =
        (.err (.unreadableMessage s.a.their), s.a)) := by
  have I := reach4_swap_inv hC hG hs
  rw [hba] at I
  rcases I.recv hC hG now with ⟨h1, h2, _⟩ | ⟨h1, b', h2, _⟩
  · refine ⟨fun h => by simp only at h1; omega, fun _ => ?_⟩
    simp only at h2
    simp only [Enc4.handle, Enc4.onRatchet, h2]
  · refine ⟨fun _ => ?_, fun h => by simp only at h1; omega⟩
    rw [handle4_of_ok hc h2]

/-- C47 for clients that send only when no message to them is under way, on a network that loses nothing:
every message is delivered intact. -/
theorem C47_calm (E : Env) (hC : GoodCurve E.curve) (hG : GoodGroup E.dh3) (s : Pair4) (hs : Calm4 E s)
    (m : DataMessage4) (plain text : Bytes) (tlvs : List TLV) (rest : List (DataMessage4 × Bytes))
    (hab : s.ab = (m, plain) :: rest) (hc : Composed text tlvs plain) (now : Nat) :
    (Enc4.handle E m (authenticatorData4 4 s.a.our s.b.our m) now s.b).1 = .ok (received text tlvs) :=
  (C47_partial E hC hG s hs.reach m plain text tlvs rest hab hc now).1
    ((calm4_inv hC hG hs).1.recent (m, plain) (by rw [hab]; simp))

/-- The same in the other direction. -/
theorem C47_calm' (E : Env) (hC : GoodCurve E.curve) (hG : GoodGroup E.dh3) (s : Pair4) (hs : Calm4 E s)
    (m : DataMessage4) (plain text : Bytes) (tlvs : List TLV) (rest : List (DataMessage4 × Bytes))
    (hba : s.ba = (m, plain) :: rest) (hc : Composed text tlvs plain) (now : Nat) :
    (Enc4.handle E m (authenticatorData4 4 s.b.our s.a.our m) now s.a).1 = .ok (received text tlvs) :=
  (C47_partial' E hC hG s hs.reach m plain text tlvs rest hba hc now).1
    ((calm4_inv hC hG hs).2.recent (m, plain) (by rw [hba]; simp))

/-- C47 does not hold: `b` sends two messages; `a` receives the first, sends a reply, and then receives the
second.  All are delivered in order, yet the second is unreadable. -/
theorem C47_violated : ∃ (E : Env) (s : Pair4) (m : DataMessage4) (text plain : Bytes) (tlvs : List TLV),
    GoodCurve E.curve ∧ GoodGroup E.dh3 ∧ Reach4 E s ∧ s.ba = [(m, plain)] ∧ Composed text tlvs plain ∧
    ∀ now, (Enc4.handle E m (authenticatorData4 4 s.b.our s.a.our m) now s.a).1 =
      .err (.unreadableMessage s.a.their) := by
  have hc : Composed [104, 111] [] [104, 111] := ⟨by decide, by decide, .inr ⟨rfl, rfl⟩⟩
  refine ⟨toyEnv, _, n2, [104, 111], [104, 111], [], goodC, goodG, reach4, rfl, hc, fun now => ?_⟩
  rw [(C47_partial' toyEnv goodC goodG _ reach4 n2 [104, 111] [104, 111] [] [] rfl hc now).2 (by decide +kernel)]

example : (Enc4.handle toyEnv m1 (authenticatorData4 4 a3.our b2.our m1) 5 b2).1 = .ok (received [111, 107] []) :=
  C47_calm toyEnv goodC goodG _ calm5 m1 [111, 107] [111, 107] [] [] rfl ⟨by decide, by decide, .inr ⟨rfl, rfl⟩⟩ 5

example : (Enc4.handle toyEnv n1 (authenticatorData4 4 b2.our a0.our n1) 5 a0).1 = .ok (received [104, 105] []) :=
  C47_calm' toyEnv goodC goodG _ calm2 n1 [104, 105] [104, 105] [] _ rfl ⟨by decide, by decide, .inr ⟨rfl, rfl⟩⟩ 5

/-- The group and the curve of the code qualify. -/
example : GoodGroup dh3072 ∧ GoodCurve ed448 := ⟨by constructor <;> decide +kernel, ed448_goodCurve⟩

/-! ## C48 -/

theorem verify3_iff {G : DHGroup} {v : Nat} :
    DH.verify3 G v = .ok () ↔ G.g ≤ v ∧ v ≤ G.p - G.g ∧ v ^ G.q % G.p = 1 := by
  unfold DH.verify3 modpow
  split
  · rename_i h
    simp only [reduceCtorEq, false_iff, not_and]
    rcases h with h | h | h
    · omega
    · omega
    · exact fun _ _ => h
  · rename_i h
    simp only [not_or, Nat.not_lt, gt_iff_lt, not_not] at h
    exact ⟨fun _ => h, fun _ => rfl⟩

theorem pointVerify_iff {c : Curve} {P : Point} :
    Point.verify c P = .ok () ↔ P ≠ Point.identity ∧ P.x < c.p ∧ P.y < c.p ∧ Point.mul c P c.q = Point.identity := by
  unfold Point.verify
  rw [← Point.isIdentity_iff, ne_eq, ← Point.isIdentity_iff]
  cases P.isIdentity <;> cases (Point.mul c P c.q).isIdentity <;> simp

theorem valid4_of {E : Env} {m : DataMessage4} (h : m.validate E = .ok ()) : Valid4 E m ∧ NonZero m.authenticator := by
  obtain ⟨h1, h2, h3, h4, h5, h6⟩ := validate_ok h
  refine ⟨⟨?_, fun v hv => verify3_iff.mp (h2 v hv), pointVerify_iff.mp h3, h4, ?_⟩, anyNonzero_iff.mp h6⟩
  · rw [← Option.isSome_iff_exists, ← h1, beq_iff_eq, ← UInt32.toNat_inj, UInt32.toNat_mod]
    rfl
  · intro hi hj hr
    apply h5
    refine ⟨?_, hj, by rw [hr]; rfl⟩
    rw [gt_iff_lt, UInt32.lt_iff_toNat_lt]
    exact hi

theorem validate_valid {E : Env} {m : DataMessage4} (h : Valid4 E m) : m.validate E = Res.assert (anyNonzero m.authenticator) := by
  obtain ⟨h1, h2, h3, h4, h5⟩ := h
  have e1 : (m.i % 3 == 0) = m.dh.isSome := by
    rw [Bool.eq_iff_iff, Option.isSome_iff_exists, ← h1, beq_iff_eq, ← UInt32.toNat_inj, UInt32.toNat_mod]
    rfl
  have e2 : ¬ (m.i > 0 ∧ m.j = 0 ∧ m.revealed.length / 64 = 0) := by
    rintro ⟨a, b, c⟩
    rw [gt_iff_lt, UInt32.lt_iff_toNat_lt] at a
    apply h5 a b
    apply List.eq_nil_of_length_eq_zero
    omega
  have e3 := pointVerify_iff.mpr h3
  unfold DataMessage4.validate
  rw [if_neg (by simpa using e1)]
  cases hd : m.dh with
  | none =>
    simp only [e3, Res.bind_ok]
    rw [if_neg (by simpa using h4), if_neg e2]
  | some v =>
    simp only [verify3_iff.mpr (h2 v hd), e3, Res.bind_ok]
    rw [if_neg (by simpa using h4), if_neg e2]

/-- C48: the check that a received data message must pass before it is processed accepts exactly the
well-formed messages with an authenticator that is not all zero. -/
theorem C48_validate (E : Env) (m : DataMessage4) :
    m.validate E = .ok () ↔ Valid4 E m ∧ NonZero m.authenticator := by
  refine ⟨valid4_of, ?_⟩
  rintro ⟨h, h6⟩
  rw [validate_valid h, anyNonzero_iff.mpr h6]
  rfl

/-- C48: everything a client sends is well-formed. -/
theorem C48_sent (E : Env) (s₀ s : Enc4) (h : List Ev4) (hf : Fresh4 E s₀) (hl : Life4 E s₀ h s) :
    ∀ m ∈ sent4 h, Valid4 E m := fun m hm => (valid4_of ((life4_inv (fresh4_zero hf).1 hl).valid m hm)).1

example : Valid4 toyEnv m1 ∧ Valid4 toyEnv n1 :=
  ⟨C48_sent toyEnv a0 a3 _ fresh_a0 life_a m1 (by simp [sent4]),
    C48_sent toyEnv b0 b3 _ fresh_b0 life_b n1 (by simp [sent4])⟩

/-! ## C49 -/

/-- C49: the MAC keys that a client revealed so far are keys under which it accepted messages, in order,
each revealed once; of the messages accepted last the keys may not be revealed yet. -/
theorem C49_spent (E : Env) (s₀ s : Enc4) (h : List Ev4) (hf : Fresh4 E s₀) (hl : Life4 E s₀ h s) :
    ∃ ks : List Bytes, List.Forall₂ (Authentic E) (accepted4 h) ks ∧ revealed4 h <+: ks.flatten := by
  obtain ⟨ks, h1, h2⟩ := (life4_inv (fresh4_zero hf).1 hl).macs
  refine ⟨ks, h1, ⟨s.ratchet.reveals, ?_⟩⟩
  rw [h2, (fresh4_zero hf).2, List.nil_append]

/-- C49: the messages accepted over the life of a session have increasing ids, so a key that was used to
accept a message, hence a key that was revealed, is not the key of any message accepted later.  Partial:
that keys of different ids differ is an assumption on the key derivation function. -/
theorem C49_increasing (E : Env) (s₀ s : Enc4) (h : List Ev4) (hf : Fresh4 E s₀) (hl : Life4 E s₀ h s) :
    ((accepted4 h).map fun x => id4 x.1).Pairwise idLt := (life4_inv (fresh4_zero hf).1 hl).accInc

/-- `a` accepted two messages and revealed their keys in its reply. -/
example : m1.revealed.length = 128 := by decide +kernel

example : ∃ ks : List Bytes, List.Forall₂ (Authentic toyEnv)
      [(n1, authenticatorData4 4 b2.our a0.our n1), (n2, authenticatorData4 4 b2.our a1.our n2)] ks ∧
      m1.revealed <+: ks.flatten := by
  have := C49_spent toyEnv a0 a3 _ fresh_a0 life_a
  simpa [accepted4, revealed4, sent4] using this

end Otrr.Props
