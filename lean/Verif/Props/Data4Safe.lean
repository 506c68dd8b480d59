import Verif.Lemmas.Safe4
import Verif.Props.Data4
/-! C66: OTRv4 data messages and crashes. -/

namespace Otrr.Props
open Otrr Otrr.Spec

/-! ## A concrete session -/

namespace Firm4

def newB : Res Mixed := Mixed.new firmEnv ⟨5, Point.mul firmEnv.curve firmEnv.curve.G 5⟩ (DH.Keypair.new firmEnv.dh3 7)
  (Point.mul firmEnv.curve firmEnv.curve.G 3) (DH.Keypair.new firmEnv.dh3 3).pub
@[irreducible] def sb : Mixed := Toy4.mx newB
@[irreducible] def b0 : Enc4 := ⟨257, 256,
  Toy4.dr ((DoubleRatchet.init firmEnv .receiver sb [1, 2, 3] 0).rotateSender firmEnv (smallRand 10) 0)⟩

instance (c : Curve) (P : Point) : Decidable (OnCurve c P) :=
  decidable_of_iff (P.x < c.p ∧ P.y < c.p ∧
    (c.p : Int) ∣ ((P.x : Int) ^ 2 + (P.y : Int) ^ 2) - (1 + c.d * (P.x : Int) ^ 2 * (P.y : Int) ^ 2))
    ⟨fun h => ⟨h.1, h.2.1, h.2.2⟩, fun h => ⟨h.1, h.2, h.3⟩⟩
instance (c : Curve) (P : Point) : Decidable (GoodKey c P) :=
  decidable_of_iff (OnCurve c P ∧ P ≠ Point.identity ∧ Point.mul c P c.q = Point.identity)
    ⟨fun h => ⟨h.1, h.2.1, h.2.2⟩, fun h => ⟨h.1, h.2, h.3⟩⟩
instance (E : Env) (v : Nat) : Decidable (GoodDh E v) := by unfold GoodDh; infer_instance
instance (E : Env) (r : Rand) : Decidable (GoodDraw E r) := by unfold GoodDraw; infer_instance

theorem goodC : GoodCurve firmEnv.curve := toy_goodCurve
theorem goodG : GoodGroup firmEnv.dh3 := by constructor <;> decide

theorem firm : NoZeroHash firmEnv := by
  intro n x hn
  refine ⟨(toyHash n x).getD 0 0 ||| 1, ?_, ?_⟩
  · show _ ∈ (toyHash n x).set 0 _
    apply List.mem_set
    simp [toyHash]
    omega
  · intro h
    have := congrArg (fun b => b.toNat % 2) h
    simp only [UInt8.toNat_or] at this
    have h2 : ((toyHash n x).getD 0 0).toNat ||| (1 : UInt8).toNat = (((toyHash n x).getD 0 0).toNat ||| 1) := rfl
    rw [h2] at this
    rw [Nat.or_mod_two_eq_one.mpr (.inr rfl)] at this
    cases this

theorem draws : GoodDraw firmEnv (smallRand 10) ∧ GoodDraw firmEnv (smallRand 2) := by decide +kernel
theorem new_b : newB = .ok sb ∧ (DoubleRatchet.init firmEnv .receiver sb [1, 2, 3] 0).rotateSender firmEnv (smallRand 10) 0 =
    .ok b0.ratchet ∧ GoodKey firmEnv.curve (Point.mul firmEnv.curve firmEnv.curve.G 5) ∧
    GoodDh firmEnv (DH.Keypair.new firmEnv.dh3 7).pub ∧ OnCurve firmEnv.curve (Point.mul firmEnv.curve firmEnv.curve.G 3) ∧
    b0.ratchet.i = 1 := by decide +kernel

theorem begun : Begun4 firmEnv b0 :=
  ⟨_, _, _, _, sb, [1, 2, 3], 0, new_b.1, new_b.2.2.1, new_b.2.2.2.1, new_b.2.2.2.2.1,
    .inr ⟨smallRand 10, 0, draws.1, new_b.2.1⟩⟩

end Firm4
open Firm4

/-! ## C66 -/

/-- C66, receiving: in a session that followed from a completed key exchange, a message that decodes and
validates is handled without panic.  Partial: handling panics if a ratchet id or message id is at its end, or if the brace key
or the chain key in question is all zero bytes. -/
theorem C66_receive_partial (E : Env) (hc : GoodCurve E.curve) (hg : GoodGroup E.dh3) (s₀ s : Enc4) (h : List Ev4)
    (hb : Begun4 E s₀) (hl : Life4 E s₀ h s) (hp : GotPoints E h) (m : DataMessage4) (ad : Bytes) (now : Nat)
    (hv : m.validate E = .ok ()) (hon : OnCurve E.curve m.ecdh) :
    (Enc4.handle E m ad now s).1 = .panic ↔ Fatal4 E m ad now s.ratchet := by
  have I := (life4_safe hb hl hp).1
  constructor
  · intro hx
    by_contra hn
    exact handle4_safe (decrypt4_safe hc hg I.weak hv hon ad now hn) hx
  · intro hf
    have hz : s₀.ratchet.i = 0 → s₀.ratchet.receiver.id = 0 := by
      obtain ⟨_, _, _, _, shared, root, now, _, _, _, _, h⟩ := hb
      refine (init4_zero (E := E) (shared := shared) (root := root) (now := now) ?_).1
      rcases h with h | ⟨rnd, now', _, h⟩
      · exact .inl h
      · exact .inr ⟨rnd, now', h⟩
    have := decrypt4_fatal hc hg I.weak (life4_inv hz hl).zero hv hon hf
    unfold Enc4.handle Enc4.onRatchet
    rw [this]

/-- C66, receiving: the same, in terms of the hash function. -/
theorem C66_receive_hash_partial (E : Env) (hc : GoodCurve E.curve) (hg : GoodGroup E.dh3) (hz : NoZeroHash E)
    (s₀ s : Enc4) (h : List Ev4) (hb : Begun4 E s₀) (hl : Life4 E s₀ h s) (hp : GotPoints E h) (m : DataMessage4)
    (ad : Bytes) (now : Nat) (hv : m.validate E = .ok ()) (hon : OnCurve E.curve m.ecdh)
    (hi : s.ratchet.i.toNat ≠ 4294967295) (hj : m.j.toNat ≠ 4294967295) :
    (Enc4.handle E m ad now s).1 ≠ .panic := by
  have I := (life4_safe hb hl hp).1
  intro hx
  cases (C66_receive_partial E hc hg s₀ s h hb hl hp m ad now hv hon).mp hx with
  | ratchets _ _ _ h => exact hi h
  | brace _ _ _ _ h => exact h (anyNonzero_iff.mp (I.brace.ne hz))
  | last _ h _ => exact hj h
  | chain h h' =>
    rcases h with ⟨hi', _, rfl⟩ | ⟨_, _, _, hr⟩
    · exact h' (anyNonzero_iff.mp ((HashOut.fwd _ (I.rcv (by omega))).ne hz))
    · obtain ⟨_, _, _, _, _, hrec, _⟩ := DoubleRatchet.rotateReceiver_ok hr
      rw [hrec] at h'
      exact h' (anyNonzero_iff.mp ((HashOut.fwd _ (.kdf2 E (by omega) _ _ _)).ne hz))

/-- C66, sending: a client can always send.  Partial: sending panics if the counters are at their end, if a key or the
authenticator is all zero bytes, or if a new key that is drawn is not acceptable. -/
theorem C66_send_partial (E : Env) (hc : GoodCurve E.curve) (s₀ s : Enc4) (h : List Ev4)
    (hb : Begun4 E s₀) (hl : Life4 E s₀ h s) (hp : GotPoints E h) (flags : UInt8) (plain : Bytes) (rnd : Rand) (now : Nat) :
    (¬ Stuck4 E s.our s.their flags plain rnd now s.ratchet → ∃ m s', Enc4.encrypt E flags plain rnd now s = (.ok m, s')) ∧
    (Stuck4 E s.our s.their flags plain rnd now s.ratchet → (Enc4.encrypt E flags plain rnd now s).1 = .panic) := by
  obtain ⟨I, J⟩ := life4_safe hb hl hp
  constructor
  · intro hn
    obtain ⟨m, d', he⟩ := encrypt4_safe hc I.weak (rv := []) rfl (fun hn => J hn) s.our s.their flags plain now hn
    refine ⟨m, { s with ratchet := d' }, ?_⟩
    unfold Enc4.encrypt Enc4.onRatchet
    rw [he]
  · intro hs
    unfold Enc4.encrypt Enc4.onRatchet
    cases he : encrypt4 E s.our s.their flags plain [] rnd now s.ratchet with
    | ok x => exact absurd he fun he => encrypt4_stuck hs he
    | err e => exact absurd he (encrypt4_ne_err e)
    | panic => rfl

/-- C66, ending the session: a client can always end it, under the same conditions. -/
theorem C66_end_partial (E : Env) (hc : GoodCurve E.curve) (s₀ s : Enc4) (h : List Ev4)
    (hb : Begun4 E s₀) (hl : Life4 E s₀ h s) (hp : GotPoints E h) (rnd : Rand) (now : Nat) :
    (¬ Stuck4 E s.our s.their IGNORE_UNREADABLE disconnectPlain rnd now s.ratchet → ∃ m s', Enc4.disconnect E rnd now s = (.ok m, s')) ∧
    (Stuck4 E s.our s.their IGNORE_UNREADABLE disconnectPlain rnd now s.ratchet → (Enc4.disconnect E rnd now s).1 = .panic) := by
  obtain ⟨I, J⟩ := life4_safe hb hl hp
  have I' : Safe4 E { s.ratchet with reveals := [] } :=
    ⟨I.peer, I.peerDh, I.own, I.ownDh, I.brace, I.snd, I.rcv, I.zero, rfl, I.first⟩
  constructor
  · intro hn
    obtain ⟨m, d', he⟩ := encrypt4_safe hc I'.weak I.rev
      (fun hn => by show s.ratchet.reveals ++ [] ≠ []; rw [List.append_nil]; exact J hn) s.our s.their IGNORE_UNREADABLE disconnectPlain now
      (r := rnd) fun hs => hn (hs.reveals s.ratchet.reveals)
    refine ⟨m, { s with ratchet := d' }, ?_⟩
    unfold Enc4.disconnect Enc4.onRatchet
    dsimp only at he ⊢
    rw [he]
  · intro hs
    unfold Enc4.disconnect Enc4.onRatchet
    dsimp only
    cases he : encrypt4 E s.our s.their IGNORE_UNREADABLE disconnectPlain s.ratchet.reveals rnd now { s.ratchet with reveals := [] } with
    | ok x => exact absurd he fun he => encrypt4_stuck (hs.reveals []) he
    | err e => exact absurd he (encrypt4_ne_err e)
    | panic => rfl

theorem Firm4.sends : (Enc4.encrypt firmEnv 0 [104, 105] (smallRand 2) 0 b0).1 ≠ .panic ∧
    (Enc4.disconnect firmEnv (smallRand 2) 0 b0).1 ≠ .panic := by decide +kernel

/-- The client of the concrete session sends, and can end the session. -/
example : (¬ Stuck4 firmEnv b0.our b0.their 0 [104, 105] (smallRand 2) 0 b0.ratchet) ∧
    ¬ Stuck4 firmEnv b0.our b0.their IGNORE_UNREADABLE disconnectPlain (smallRand 2) 0 b0.ratchet :=
  ⟨fun h => sends.1 ((C66_send_partial firmEnv goodC b0 b0 [] begun .start (by intro _ _ _ h; cases h) 0 [104, 105] (smallRand 2) 0).2 h),
    fun h => sends.2 ((C66_end_partial firmEnv goodC b0 b0 [] begun .start (by intro _ _ _ h; cases h) (smallRand 2) 0).2 h)⟩

/-- It receives a message that does not authenticate. -/
example (ad : Bytes) : (Enc4.handle firmEnv ⟨0, 0, 0, 7, b0.ratchet.shared.publicEcdh, some b0.ratchet.shared.publicDh, [1],
    List.replicate 64 1, []⟩ ad 0 b0).1 ≠ .panic :=
  C66_receive_hash_partial firmEnv goodC goodG firm b0 b0 [] begun .start (by intro _ _ _ h; cases h) _ ad 0
    (by decide +kernel) (by decide +kernel) (by decide +kernel) (by decide +kernel)

/-- A message for the current ratchet of `s`, with the largest message id, authenticated with the MAC key
for it. -/
def lastMessage (E : Env) (s : Enc4) : DataMessage4 :=
  let d := s.ratchet
  let m : DataMessage4 := ⟨0, 0, predSat d.i, 0xFFFFFFFF, d.shared.publicEcdh,
    if predSat d.i % 3 = 0 then some d.shared.publicDh else .none, [], [], []⟩
  let mac := kdf E 64 0x16 (kdf E 64 0x15 (chainFwd E (4294967295 - d.receiver.id.toNat) d.receiver.chain))
  { m with authenticator := kdf2 E 64 0x18 mac (authenticatorData4 4 s.their s.our m) }

/-- C66 fails: after the first ratchet the peer can crash the client at any time, with one message that is
valid and properly authenticated, but carries the largest message id. -/
theorem C66_overflow (E : Env) (hz : NoZeroHash E) (s₀ s : Enc4) (h : List Ev4)
    (hb : Begun4 E s₀) (hl : Life4 E s₀ h s) (hp : GotPoints E h) (hi : 0 < s.ratchet.i.toNat) (now : Nat) :
    ∃ m, m.validate E = .ok () ∧ OnCurve E.curve m.ecdh ∧
      m.authenticator = kdf2 E 64 0x18
        (kdf E 64 0x16 (kdf E 64 0x15 (chainFwd E (m.j.toNat - s.ratchet.receiver.id.toNat) s.ratchet.receiver.chain)))
        (authenticatorData4 4 s.their s.our m) ∧
      (Enc4.handle E m (authenticatorData4 4 s.their s.our m) now s).1 = .panic := by
  have I := (life4_safe hb hl hp).1
  have hpi : (predSat s.ratchet.i).toNat + 1 = s.ratchet.i.toNat := by rw [predSat_toNat]; omega
  have hr := s.ratchet.receiver.id.toNat_lt
  have e1 : (lastMessage E s).i = predSat s.ratchet.i := rfl
  have e2 : (lastMessage E s).j = 0xFFFFFFFF := rfl
  have e3 : (lastMessage E s).dh = if predSat s.ratchet.i % 3 = 0 then some s.ratchet.shared.publicDh else .none := rfl
  have e4 : (lastMessage E s).authenticator = kdf2 E 64 0x18
      (kdf E 64 0x16 (kdf E 64 0x15 (chainFwd E (4294967295 - s.ratchet.receiver.id.toNat) s.ratchet.receiver.chain)))
      (authenticatorData4 4 s.their s.our (lastMessage E s)) := rfl
  have e5 : (lastMessage E s).j.toNat = 4294967295 := rfl
  have hauth : HashOut E (lastMessage E s).authenticator := .kdf2 E (by omega) _ _ _
  have hval : (lastMessage E s).validate E = .ok () := by
    unfold DataMessage4.validate
    have e6 : (lastMessage E s).ecdh = s.ratchet.shared.publicEcdh := rfl
    have e7 : (lastMessage E s).revealed = [] := rfl
    have c1 : ¬ (predSat s.ratchet.i > 0 ∧ (0xFFFFFFFF : UInt32) = 0 ∧ ([] : Bytes).length / 64 = 0) := by
      rintro ⟨_, b, _⟩
      cases b
    rw [e1, e2, e3, e6, e7]
    by_cases h9 : predSat s.ratchet.i % 3 = 0
    · simp only [h9, if_true, Option.isSome_some, I.peerDh, verify_of_goodKey I.peer, Res.bind_ok, ne_eq, not_true_eq_false,
        if_false, if_neg c1, hauth.ne hz]
      rfl
    · have h9' : (predSat s.ratchet.i % 3 == 0) = false := by simpa using h9
      simp only [h9, h9', if_false, Option.isSome_none, verify_of_goodKey I.peer, Res.bind_ok, ne_eq, not_true_eq_false,
        if_neg c1, hauth.ne hz]
      rfl
  refine ⟨lastMessage E s, hval, I.peer.on, e4, ?_⟩
  have hsp : speculate4 E (lastMessage E s) now s.ratchet = .ok s.ratchet := by
    unfold speculate4
    rw [e1, e2, if_neg, if_neg, if_neg]
    · intro h
      rw [h] at hpi
      omega
    · simp only [UInt32.lt_iff_toNat_lt]
      have : (0xFFFFFFFF : UInt32).toNat = 4294967295 := rfl
      omega
    · rw [gt_iff_lt, UInt32.lt_iff_toNat_lt]
      omega
  have hkz : anyNonzero (chainFwd E (4294967295 - s.ratchet.receiver.id.toNat) s.ratchet.receiver.chain) = true :=
    (HashOut.fwd _ (I.rcv (by omega))).ne hz
  have hdec : decrypt4 E (lastMessage E s) (authenticatorData4 4 s.their s.our (lastMessage E s)) now s.ratchet = .panic := by
    unfold decrypt4
    rw [hsp, Res.bind_ok, Ratchet.forward_to E s.ratchet.receiver (lastMessage E s).j (by rw [e5]; omega), Res.bind_ok, e5]
    have hkey : (⟨chainFwd E (4294967295 - s.ratchet.receiver.id.toNat) s.ratchet.receiver.chain, (lastMessage E s).j⟩ : Ratchet).keys E =
        .ok ⟨kdf E 64 0x15 (chainFwd E (4294967295 - s.ratchet.receiver.id.toNat) s.ratchet.receiver.chain),
          kdf E 64 0x16 (kdf E 64 0x15 (chainFwd E (4294967295 - s.ratchet.receiver.id.toNat) s.ratchet.receiver.chain)),
          kdf2 E 64 0x17 [0xff] (chainFwd E (4294967295 - s.ratchet.receiver.id.toNat) s.ratchet.receiver.chain)⟩ := if_pos hkz
    rw [hkey, Res.bind_ok, compareBytes_ok_iff.mpr ⟨e4.symm, by rw [← e4]; exact hauth.ne hz⟩, Res.bind_ok]
    unfold DoubleRatchet.confirmReceiver
    simp only [hkey, Res.bind_ok]
    unfold Ratchet.rotate incId
    rw [if_pos e2]
    rfl
  unfold Enc4.handle Enc4.onRatchet
  rw [hdec]

/-- C66 fails: the client of the concrete session crashes on such a message. -/
theorem C66_violated : ∃ (E : Env) (s₀ : Enc4) (m : DataMessage4) (ad : Bytes), Begun4 E s₀ ∧ m.validate E = .ok () ∧
    OnCurve E.curve m.ecdh ∧ (Enc4.handle E m ad 0 s₀).1 = .panic := by
  obtain ⟨m, h1, h2, _, h3⟩ := C66_overflow firmEnv firm b0 b0 [] begun .start (by intro _ _ _ h; cases h)
    (by rw [new_b.2.2.2.2.2]; decide) 0
  exact ⟨firmEnv, b0, m, _, begun, h1, h2, h3⟩

end Otrr.Props
