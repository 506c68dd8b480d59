import Verif.Lemmas.SessionToy
import Verif.Spec.SessionExchange
/-! # Two toy clients that meet and talk, for the examples -/

namespace Otrr.Spec.ToySession
open Otrr Otrr.Spec

/-- A signed profile makes its owner a party. -/
theorem sign_party {E : Env} (hc : GoodCurve E.curve) (p : ClientProfile) (rk : Bytes)
    (hik : p.identityKey = (EdDSAKeyPair.generate E rk).pub) (hlk : p.legacyKey = .none) (f : Nat)
    (hf : p.forgingKey = Point.mul E.curve E.curve.G f) (ht : ValidTag p.ownerTag) (hv : p.versions = [.v4])
    (n1 : p.identityKey ≠ Point.identity) (n2 : p.forgingKey ≠ Point.identity)
    (h1 : ((EdDSAKeyPair.generate E rk).sign E (wFields (p.signedFields E .none))).r ≠ Point.identity.encode)
    (h2 : anyNonzero ((EdDSAKeyPair.generate E rk).sign E (wFields (p.signedFields E .none))).s = true) (a c : Bytes) :
    ∃ P, p.sign E (EdDSAKeyPair.generate E rk) .none = .ok P ∧ Party E ⟨wPayload P, EdDSAKeyPair.generate E rk, a, c⟩ P p := by
  have hon : OnCurve E.curve p.forgingKey := hf ▸ (mulG_good hc f).1
  obtain ⟨P', h3, h4, h5⟩ := Props.signed_wf E hc p rk .none hik (by rw [hlk]; rfl) ht hon
    (by rw [hv]; simp) (by rw [hv]; simp) (by rw [hv]; simp) (by rw [hv]; simp) (by simp) h1 (anyNonzero_iff.mp h2)
  exact ⟨P', h3, rfl, h5, h4, hik, generate_pair _ _, hik ▸ key_good hc rk (hik ▸ n1), ⟨hon, n2, hf ▸ (mulG_good hc f).2⟩⟩

/-- The profiles of the two clients. -/
def plainA : ClientProfile := ⟨0x100, (EdDSAKeyPair.generate tinyEnv [4]).pub, Point.mul toyCurve toyCurve.G 3, [.v4], 1000, .none⟩
def plainB : ClientProfile := ⟨0x102, (EdDSAKeyPair.generate tinyEnv [9]).pub, Point.mul toyCurve toyCurve.G 5, [.v4], 1000, .none⟩

theorem goodA : plainA.identityKey ≠ Point.identity ∧ plainA.forgingKey ≠ Point.identity ∧
    ((EdDSAKeyPair.generate tinyEnv [4]).sign tinyEnv (wFields (plainA.signedFields tinyEnv .none))).r ≠ Point.identity.encode ∧
    anyNonzero ((EdDSAKeyPair.generate tinyEnv [4]).sign tinyEnv (wFields (plainA.signedFields tinyEnv .none))).s = true := by decide +kernel
theorem goodB : plainB.identityKey ≠ Point.identity ∧ plainB.forgingKey ≠ Point.identity ∧
    ((EdDSAKeyPair.generate tinyEnv [9]).sign tinyEnv (wFields (plainB.signedFields tinyEnv .none))).r ≠ Point.identity.encode ∧
    anyNonzero ((EdDSAKeyPair.generate tinyEnv [9]).sign tinyEnv (wFields (plainB.signedFields tinyEnv .none))).s = true := by decide +kernel

/-- The bytes of a signed profile. -/
def bytesOf : Res ClientProfilePayload → Bytes
  | .ok p => wPayload p
  | _ => []

def meetA (size seed : Nat) : Call :=
  { callA size seed with profile := bytesOf (plainA.sign tinyEnv (EdDSAKeyPair.generate tinyEnv [4]) .none) }
def meetB (size seed : Nat) : Call :=
  { callB size seed with profile := bytesOf (plainB.sign tinyEnv (EdDSAKeyPair.generate tinyEnv [9]) .none) }

theorem partyA (size seed : Nat) : ∃ P, Party tinyEnv ((meetA size seed).dake acA) P plainA := by
  obtain ⟨P, h1, h2⟩ := sign_party (E := tinyEnv) toy_goodCurve plainA [4] (by simp only [plainA]) (by simp only [plainA]) 3 (by simp only [plainA]; rfl) (Or.inr (by decide))
    (by simp only [plainA]) goodA.1 goodA.2.1 goodA.2.2.1 goodA.2.2.2 [97] [98]
  refine ⟨P, ?_⟩
  have : (meetA size seed).dake acA =
      ⟨bytesOf (plainA.sign tinyEnv (EdDSAKeyPair.generate tinyEnv [4]) .none), EdDSAKeyPair.generate tinyEnv [4], [97], [98]⟩ := by
    simp only [meetA, callA, Call.dake, acA]
  rw [this, h1]
  exact h2

theorem partyB (size seed : Nat) : ∃ P, Party tinyEnv ((meetB size seed).dake acB) P plainB := by
  obtain ⟨P, h1, h2⟩ := sign_party (E := tinyEnv) toy_goodCurve plainB [9] (by simp only [plainB]) (by simp only [plainB]) 5 (by simp only [plainB]; rfl) (Or.inr (by decide))
    (by simp only [plainB]) goodB.1 goodB.2.1 goodB.2.2.1 goodB.2.2.2 [98] [97]
  refine ⟨P, ?_⟩
  have : (meetB size seed).dake acB =
      ⟨bytesOf (plainB.sign tinyEnv (EdDSAKeyPair.generate tinyEnv [9]) .none), EdDSAKeyPair.generate tinyEnv [9], [98], [97]⟩ := by
    simp only [meetB, callB, Call.dake, acB]
  rw [this, h1]
  exact h2

/-- The facts about keys that the exchange needs. -/
theorem keys : plainB.forgingKey ≠ plainA.identityKey ∧ plainA.forgingKey ≠ plainB.identityKey ∧
    (ECDHKeyPair.generate tinyEnv (((meetB 5000 3).rnd.sub 0).bytes [0] 57)).pub ≠ plainA.identityKey ∧
    (ECDHKeyPair.generate tinyEnv (((meetA 5000 8).rnd.sub 0).bytes [0] 57)).pub ≠ plainB.identityKey ∧
    (DH.Keypair.generate3 tinyEnv.dh3 ((((meetB 5000 3).rnd.sub 0).sub 1).bytes [0] 80)).pub ≠
      (DH.Keypair.generate3 tinyEnv.dh3 (((meetB 5000 3).rnd.sub 0).bytes [3] 80)).pub ∧
    2 * (meetA 5000 8).profile.length + 3 * (natToBE tinyEnv.dh3.p).length + 700 ≤ 5000 ∧
    2 * (meetB 5000 3).profile.length + 3 * (natToBE tinyEnv.dh3.p).length + 700 ≤ 5000 := by decide +kernel

instance (v : Nat) : Decidable (Valid3072 tinyEnv v) := by unfold Valid3072; infer_instance

theorem ephemeralA : GoodEphemeral tinyEnv ((meetA 5000 8).rnd.sub 0) :=
  ⟨by decide +kernel, by decide +kernel, by decide +kernel, by decide +kernel⟩
theorem ephemeralB : GoodEphemeral tinyEnv ((meetB 5000 3).rnd.sub 0) :=
  ⟨by decide +kernel, by decide +kernel, by decide +kernel, by decide +kernel⟩

theorem toy_meet : CanMeet4 tinyEnv acA acB (meetA 5000 8) (meetB 5000 3) where
  curve := toy_goodCurve
  group := ⟨1, by decide, by decide +kernel⟩
  allow := ⟨by simp only [AllowsV4, PolicyBit]; decide, by simp only [AllowsV4, PolicyBit]; decide⟩
  tags := ⟨by decide, by decide⟩
  names := ⟨rfl, rfl⟩
  profiles := by
    obtain ⟨PA, h1⟩ := partyA 5000 8
    obtain ⟨PB, h2⟩ := partyB 5000 3
    exact ⟨PA, PB, plainA, plainB, h1, h2, keys.1, keys.2.1, keys.2.2.1, keys.2.2.2.1⟩
  keysA := ephemeralA
  keysB := ephemeralB
  room := ⟨keys.2.2.2.2.2.1, keys.2.2.2.2.2.2⟩

/-- The ring signatures of the exchange are good. -/
theorem proofs : (match DAKE.initiate tinyEnv ((meetB 5000 3).dake acB) ((meetB 5000 3).rnd.sub 0) .initial with
    | (.ok (.identity mI), dB) => match DAKE.handleIdentity tinyEnv ((meetA 5000 8).dake acA) mI ((meetA 5000 8).rnd.sub 0) .initial with
      | (.ok (.authR mR), _) => match DAKE.handleAuthR tinyEnv ((meetB 5000 3).dake acB) mR ((meetB 5000 3).rnd.sub 0) 3 dB with
        | (.ok (_, .authI mA), _) => decide ((∀ v ∈ [mR.sigma.c1, mR.sigma.r1, mR.sigma.c2, mR.sigma.r2, mR.sigma.c3, mR.sigma.r3],
              0 < v ∧ v < toyCurve.q) ∧ (mR.sigma.c1 + mR.sigma.c2 + mR.sigma.c3) % toyCurve.q ≠ 0 ∧
            (∀ v ∈ [mA.sigma.c1, mA.sigma.r1, mA.sigma.c2, mA.sigma.r2, mA.sigma.c3, mA.sigma.r3],
              0 < v ∧ v < toyCurve.q) ∧ (mA.sigma.c1 + mA.sigma.c2 + mA.sigma.c3) % toyCurve.q ≠ 0)
        | _ => false
      | _ => false
    | _ => false) = true := by decide +kernel

/-! Bob gets a query, the clients exchange keys, Bob sends a text, and Alice answers with two. -/
@[irreducible] def k1 : Effect := (Op.receive query4).run tinyEnv acB (meetB 5000 3) .new
@[irreducible] def l2 : Effect := (Op.receive (msg k1)).run tinyEnv acA (meetA 5000 8) .new
@[irreducible] def k3 : Effect := (Op.receive (msg l2)).run tinyEnv acB (meetB 5000 3) k1.after
@[irreducible] def l4 : Effect := (Op.receive (msg k3)).run tinyEnv acA (meetA 5000 4) l2.after
@[irreducible] def k6 : Effect := (Op.send 0x100 [104, 0, 105]).run tinyEnv acB (meetB 5000 6) k3.after
@[irreducible] def l7 : Effect := (Op.receive (text k6)).run tinyEnv acA (meetA 5000 7) l4.after
@[irreducible] def l8 : Effect := (Op.send 0x102 [111, 107]).run tinyEnv acA (meetA 5000 8) l7.after
@[irreducible] def k9 : Effect := (Op.receive (text l8)).run tinyEnv acB (meetB 5000 9) k6.after
@[irreducible] def l10 : Effect := (Op.send 0x102 [33]).run tinyEnv acA (meetA 5000 10) l8.after
@[irreducible] def k11 : Effect := (Op.receive (text l10)).run tinyEnv acB (meetB 5000 11) k9.after

/-- The condition on new keys, in a form that can be computed. -/
def freshSend (k : UInt32) (s s' : Session) : Bool :=
  match stateOf s k, stateOf s' k with
  | .encrypted4 x _, .encrypted4 x' _ => !decide (x.ratchet.next = .sender) || !decide (x.ratchet.i.toNat % 3 = 0) ||
      decide (x'.ratchet.shared.dh.pub ≠ x.ratchet.shared.dh.pub)
  | _, _ => false

theorem fresh_of {k : UInt32} {s s' : Session} (h : freshSend k s s' = true) : FreshSend k s s' := by
  intro x m x' m' h1 h2 h3 h4
  unfold freshSend at h
  rw [h1, h2] at h
  simpa [h3, h4] using h

theorem runTalk : k1.result = .ok (.user .none) ∧ l2.result = .ok (.user .none) ∧
    k3.result = .ok (.user (.sessionStarted 0x100)) ∧ l4.result = .ok (.user (.sessionStarted 0x102)) ∧
    (k1.sent = [msg k1] ∧ l2.sent = [msg l2] ∧ k3.sent = [msg k3]) ∧
    (k6.result = .ok (.texts [text k6]) ∧ l8.result = .ok (.texts [text l8]) ∧ l10.result = .ok (.texts [text l10])) ∧
    ((text k6).length < 2 ^ 32 ∧ (text l8).length < 2 ^ 32 ∧ (text l10).length < 2 ^ 32) ∧
    freshSend 0x100 k3.after k6.after = true ∧ freshSend 0x102 l7.after l8.after = true ∧ freshSend 0x102 l8.after l10.after = true := by decide +kernel

end Otrr.Spec.ToySession
