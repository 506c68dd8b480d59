import Verif.Props.Profile
import Verif.Spec.Dake
import Verif.Lemmas.Toy
/-! # A concrete OTRv4 key exchange with the toy primitives, for the examples -/

namespace Otrr.Spec
open Otrr

/-- The profiles of the two clients. -/
def profileA : ClientProfile :=
  ⟨0x100, (EdDSAKeyPair.generate toyEnv [4]).pub, Point.mul toyCurve toyCurve.G 3, [.v4], 1000, .none⟩
def profileB : ClientProfile :=
  ⟨0x102, (EdDSAKeyPair.generate toyEnv [9]).pub, Point.mul toyCurve toyCurve.G 5, [.v4], 1000, .none⟩

@[irreducible] def payloadA : ClientProfilePayload :=
  { fields := [Field.ownerTag 256, Field.identityKey { x := 35, y := 38 }, Field.forgingKey { x := 36, y := 12
    }, Field.versions [Version.v4], Field.expiration 1000], signature := { r := ([21] ++ List.replicate 56 0), s
    := ([3] ++ List.replicate 56 0) } }
@[irreducible] def payloadB : ClientProfilePayload :=
  { fields := [Field.ownerTag 258, Field.identityKey { x := 25, y := 28 }, Field.forgingKey { x := 30, y := 21
    }, Field.versions [Version.v4], Field.expiration 1000], signature := { r := ([39] ++ List.replicate 56 0), s
    := ([12] ++ List.replicate 56 0) } }

@[irreducible] def hostA : DAKEHost := ⟨wPayload payloadA, EdDSAKeyPair.generate toyEnv [4], [97], [98]⟩
@[irreducible] def hostB : DAKEHost := ⟨wPayload payloadB, EdDSAKeyPair.generate toyEnv [9], [98], [97]⟩

theorem generate_pair (E : Env) (rk : Bytes) : (EdDSAKeyPair.generate E rk).pub =
    Point.mul E.curve E.curve.G (EdDSAKeyPair.generate E rk).sk := rfl

theorem key_good {E : Env} (hc : GoodCurve E.curve) (rk : Bytes)
    (h : (EdDSAKeyPair.generate E rk).pub ≠ Point.identity) : GoodKey E.curve (EdDSAKeyPair.generate E rk).pub :=
  ⟨(mulG_good hc _).1, h, (mulG_good hc _).2⟩

theorem toy_sign (p : ClientProfile) (rk : Bytes)
    (hik : p.identityKey = (EdDSAKeyPair.generate toyEnv rk).pub) (hlk : p.legacyKey = .none) (f : Nat)
    (hf : p.forgingKey = Point.mul toyCurve toyCurve.G f) (ht : ValidTag p.ownerTag) (hv : p.versions = [.v4])
    (n1 : p.identityKey ≠ Point.identity) (n2 : p.forgingKey ≠ Point.identity)
    (h1 : ((EdDSAKeyPair.generate toyEnv rk).sign toyEnv (wFields (p.signedFields toyEnv .none))).r ≠
      Point.identity.encode)
    (h2 : anyNonzero ((EdDSAKeyPair.generate toyEnv rk).sign toyEnv (wFields (p.signedFields toyEnv .none))).s = true)
    {P : ClientProfilePayload} (hP : p.sign toyEnv (EdDSAKeyPair.generate toyEnv rk) .none = .ok P) (a c : Bytes) :
    Party toyEnv ⟨wPayload P, EdDSAKeyPair.generate toyEnv rk, a, c⟩ P p := by
  have hon : OnCurve toyEnv.curve p.forgingKey := hf ▸ (mulG_good toy_goodCurve f).1
  obtain ⟨P', h3, h4, h5⟩ := Props.signed_wf toyEnv toy_goodCurve p rk .none hik (by rw [hlk]; rfl) ht hon
    (by rw [hv]; simp) (by rw [hv]; simp) (by rw [hv]; simp) (by rw [hv]; simp) (by simp) h1 (anyNonzero_iff.mp h2)
  rw [h3] at hP
  cases hP
  exact ⟨rfl, h5, h4, hik, generate_pair _ _, hik ▸ key_good toy_goodCurve rk (hik ▸ n1), ⟨hon, n2, hf ▸ (mulG_good toy_goodCurve f).2⟩⟩

theorem partyA : Party toyEnv hostA payloadA profileA := by
  have h := toy_sign profileA [4] (by simp only [profileA]) (by simp only [profileA]) 3
    (by simp only [profileA]) (Or.inr (by decide)) (by simp only [profileA]) (by decide +kernel) (by decide +kernel)
    (by decide +kernel) (by decide +kernel) (P := payloadA) (by decide +kernel) [97] [98]
  unfold hostA
  exact h

theorem partyB : Party toyEnv hostB payloadB profileB := by
  have h := toy_sign profileB [9] (by simp only [profileB]) (by simp only [profileB]) 5
    (by simp only [profileB]) (Or.inr (by decide)) (by simp only [profileB]) (by decide +kernel) (by decide +kernel)
    (by decide +kernel) (by decide +kernel) (P := payloadB) (by decide +kernel) [98] [97]
  unfold hostB
  exact h

/-- The messages of an exchange that Bob begins, and the states of the two clients during it. -/
@[irreducible] def toyIdentity : IdentityMessage :=
  ⟨payloadB, ⟨8, 38⟩, 8, ⟨8, 38⟩, 6⟩
@[irreducible] def toyBegan : DAKEState :=
  .awaitingAuthR
    ⟨⟨363419362147803445274661903944002267176820680343659030350560365288336590164209586498838014387006994994521962842630231189098109239360684,
    ⟨8, 38⟩⟩, ⟨146, 8⟩, payloadB,
    ⟨363419362147803445274661903944002267176820680343659030350560365288336590164209586498838014387006994994521962842630231189098109239360684,
    ⟨8, 38⟩⟩, ⟨240, 6⟩, toyIdentity⟩
@[irreducible] def toyAuthR : AuthRMessage :=
  ⟨payloadA, ⟨13, 21⟩, 13, ⟨12, 10, 7, 9, 12, 10⟩, ⟨2, 39⟩, 12⟩
@[irreducible] def toyAnswer : DAKEState :=
  .awaitingAuthI ⟨payloadA, payloadB, ⟨13, 21⟩, ⟨8, 38⟩, 13, 8, ([214, 226, 192, 8, 175, 30, 2, 180, 197, 98,
    114, 10, 109, 230, 155, 110, 20, 178, 172, 101, 255, 255, 255, 255, 255, 255, 255, 255, 255, 255, 255, 255,
    9, 71, 48, 15, 125, 45, 32, 34, 75, 129, 128, 153, 158, 75, 83, 154] ++ List.replicate 16 0),
    ⟨363419362147803445274661903944002267176820680343659030349286652306726112014550305663742447400621025163199916638196197765011112057972388,
    ⟨2, 39⟩⟩, ⟨10, 12⟩, ⟨8, 38⟩, 6⟩
@[irreducible] def toyAuthI : AuthIMessage :=
  ⟨⟨6, 9, 12, 3, 12, 10⟩⟩

theorem toy1 : DAKE.initiate toyEnv hostB (smallRand 4) .initial = (.ok (.identity toyIdentity), toyBegan) := by
  decide +kernel
theorem toy2 : DAKE.handleIdentity toyEnv hostA toyIdentity (smallRand 10) .initial =
    (.ok (.authR toyAuthR), toyAnswer) := by
  decide +kernel
theorem toy3 : ∃ mat, DAKE.handleAuthR toyEnv hostB toyAuthR (smallRand 1) 5 toyBegan =
    (.ok (mat, .authI toyAuthI), .initial) := by
  have h : (match DAKE.handleAuthR toyEnv hostB toyAuthR (smallRand 1) 5 toyBegan with
    | (.ok (_, m), s) => decide (m = .authI toyAuthI ∧ s = .initial)
    | _ => false) = true := by decide +kernel
  split at h
  · simp only [decide_eq_true_eq] at h
    rename_i mat _ _ _
    exact ⟨mat, by simp_all⟩
  · simp at h
theorem toy4 : ∃ mat, DAKE.handleAuthI toyEnv hostA toyAuthI 6 toyAnswer = (.ok mat, toyAnswer) := by
  have h : (match DAKE.handleAuthI toyEnv hostA toyAuthI 6 toyAnswer with
    | (.ok _, s) => decide (s = toyAnswer)
    | _ => false) = true := by decide +kernel
  split at h
  · simp only [decide_eq_true_eq] at h
    rename_i mat _ _
    exact ⟨mat, by simp_all⟩
  · simp at h

theorem toy_alice_life : DakeLife toyEnv [.identity toyIdentity (.ok (.authR toyAuthR))] toyAnswer :=
  .identity .start toy2 (by simp)

theorem toy_bob_life : DakeLife toyEnv [.began toyIdentity] toyBegan := .began .start toy1

end Otrr.Spec
