import Verif.Props.Ake
import Verif.Lemmas.DakeToy
import Verif.Spec.Session
/-! # Concrete sessions with the toy primitives, for the examples -/

namespace Otrr.Spec.ToySession
open Otrr Otrr.Spec

/-- The toy environment with small values of SHAKE-256, which are used as scalars. -/
def tinyEnv : Env := { toyEnv with
  shake := fun n d => (List.replicate n 0).set 0 ((toyHash 1 d).getD 0 0)
  shake_len := fun n d => by simp }

/-- The profile of a client, signed by the key made of `k`. -/
def profileOf (k : UInt8) (tag : UInt32) (f : Nat) : Bytes :=
  let id := EdDSAKeyPair.generate tinyEnv [k]
  match ClientProfile.sign tinyEnv ⟨tag, id.pub, Point.mul toyCurve toyCurve.G f, [.v4], 1000, .none⟩ id .none with
  | .ok p => wPayload p
  | _ => []

/-- Alice has tag 0x100, Bob 0x102; both allow OTRv3 and OTRv4. -/
def acA : Account := ⟨0x104, 0x100, [97], [98]⟩
def acB : Account := ⟨0x104, 0x102, [98], [97]⟩

/-- Calls with small random numbers. -/
def callA (size seed : Nat) : Call :=
  ⟨size, some Props.ToyAke.alice, EdDSAKeyPair.generate tinyEnv [4], profileOf 4 0x100 3, fun _ => some [1], smallRand seed, seed⟩
def callB (size seed : Nat) : Call :=
  ⟨size, some Props.ToyAke.bob, EdDSAKeyPair.generate tinyEnv [9], profileOf 9 0x102 5, fun _ => some [1], smallRand seed, seed⟩

/-- `?OTRv3?` and `?OTRv4?`. -/
def query3 : Bytes := [0x3f, 0x4f, 0x54, 0x52, 0x76, 0x33, 0x3f]
def query4 : Bytes := [0x3f, 0x4f, 0x54, 0x52, 0x76, 0x34, 0x3f]

/-- The first injected message. -/
def msg (e : Effect) : Bytes := e.sent.headD []

/-- The first text returned by `send`. -/
def text (e : Effect) : Bytes :=
  match e.result with
  | .ok (.texts (t :: _)) => t
  | _ => []

/-! OTRv3: Bob gets a query, the clients exchange keys, and Alice sends `hi`. -/
@[irreducible] def b1 : Effect := (Op.receive query3).run tinyEnv acB (callB 1000 1) .new
@[irreducible] def a2 : Effect := (Op.receive (msg b1)).run tinyEnv acA (callA 1000 2) .new
@[irreducible] def b3 : Effect := (Op.receive (msg a2)).run tinyEnv acB (callB 1000 3) b1.after
@[irreducible] def a4 : Effect := (Op.receive (msg b3)).run tinyEnv acA (callA 1000 4) a2.after
@[irreducible] def b5 : Effect := (Op.receive (msg a4)).run tinyEnv acB (callB 1000 5) b3.after
@[irreducible] def a6 : Effect := (Op.send 0x102 [104, 105]).run tinyEnv acA (callA 1000 6) a4.after
@[irreducible] def b7 : Effect := (Op.receive (text a6)).run tinyEnv acB (callB 1000 7) b5.after

/-! OTRv4: Bob gets a query, the clients exchange keys, and Bob sends `hi`. -/
@[irreducible] def d1 : Effect := (Op.receive query4).run tinyEnv acB (callB 1000 3) .new
@[irreducible] def c2 : Effect := (Op.receive (msg d1)).run tinyEnv acA (callA 1000 8) .new
@[irreducible] def d3 : Effect := (Op.receive (msg c2)).run tinyEnv acB (callB 1000 3) d1.after
@[irreducible] def c4 : Effect := (Op.receive (msg d3)).run tinyEnv acA (callA 1000 4) c2.after
@[irreducible] def d6 : Effect := (Op.send 0x100 [104, 105]).run tinyEnv acB (callB 1000 6) d3.after
@[irreducible] def c7 : Effect := (Op.receive (text d6)).run tinyEnv acA (callA 1000 7) c4.after

theorem run3 : b1.result = .ok (.user .none) ∧ a2.result = .ok (.user .none) ∧ b3.result = .ok (.user .none) ∧
    a4.result = .ok (.user (.sessionStarted 0x102)) ∧ b5.result = .ok (.user (.sessionStarted 0x100)) ∧
    b7.result = .ok (.user (.confidential 0x100 [104, 105] [])) ∧
    a4.after.status 0x102 = some .encrypted ∧ b5.after.status 0x100 = some .encrypted ∧
    a2.after.status 0x102 = some .plaintext := by decide +kernel
theorem run4 : d1.result = .ok (.user .none) ∧ c2.result = .ok (.user .none) ∧
    d3.result = .ok (.user (.sessionStarted 0x100)) ∧ c4.result = .ok (.user (.sessionStarted 0x102)) ∧
    c7.result = .ok (.user (.confidential 0x102 [104, 105] [])) ∧
    d3.after.status 0x100 = some .encrypted ∧ c4.after.status 0x102 = some .encrypted := by decide +kernel

theorem b1_result : b1.result = .ok (.user .none) := run3.1
theorem a2_result : a2.result = .ok (.user .none) := run3.2.1
theorem b3_result : b3.result = .ok (.user .none) := run3.2.2.1
theorem a4_result : a4.result = .ok (.user (.sessionStarted 0x102)) := run3.2.2.2.1
theorem b5_result : b5.result = .ok (.user (.sessionStarted 0x100)) := run3.2.2.2.2.1
theorem b7_result : b7.result = .ok (.user (.confidential 0x100 [104, 105] [])) := run3.2.2.2.2.2.1
theorem d1_result : d1.result = .ok (.user .none) := run4.1
theorem c2_result : c2.result = .ok (.user .none) := run4.2.1
theorem d3_result : d3.result = .ok (.user (.sessionStarted 0x100)) := run4.2.2.1
theorem c4_result : c4.result = .ok (.user (.sessionStarted 0x102)) := run4.2.2.2.1
theorem c7_result : c7.result = .ok (.user (.confidential 0x102 [104, 105] [])) := run4.2.2.2.2.1
theorem status_a4 : a4.after.status 0x102 = some .encrypted := run3.2.2.2.2.2.2.1
theorem status_b5 : b5.after.status 0x100 = some .encrypted := run3.2.2.2.2.2.2.2.1
theorem status_a2 : a2.after.status 0x102 = some .plaintext := run3.2.2.2.2.2.2.2.2
theorem status_d3 : d3.after.status 0x100 = some .encrypted := run4.2.2.2.2.2.1
theorem status_c4 : c4.after.status 0x102 = some .encrypted := run4.2.2.2.2.2.2

theorem hist_b1 : ∃ h, Hist tinyEnv acB h b1.after :=
  ⟨_, .step .new (by unfold b1; rfl) (by rw [b1_result]; nofun)⟩
theorem hist_a2 : ∃ h, Hist tinyEnv acA h a2.after :=
  ⟨_, .step .new (by unfold a2; rfl) (by rw [a2_result]; nofun)⟩
theorem hist_b3 : ∃ h, Hist tinyEnv acB h b3.after :=
  hist_b1.elim fun _ h => ⟨_, .step h (by unfold b3; rfl) (by rw [b3_result]; nofun)⟩
theorem hist_a4 : ∃ h, Hist tinyEnv acA h a4.after :=
  hist_a2.elim fun _ h => ⟨_, .step h (by unfold a4; rfl) (by rw [a4_result]; nofun)⟩
theorem hist_b5 : ∃ h, Hist tinyEnv acB h b5.after :=
  hist_b3.elim fun _ h => ⟨_, .step h (by unfold b5; rfl) (by rw [b5_result]; nofun)⟩
theorem hist_d1 : ∃ h, Hist tinyEnv acB h d1.after :=
  ⟨_, .step .new (by unfold d1; rfl) (by rw [d1_result]; nofun)⟩
theorem hist_c2 : ∃ h, Hist tinyEnv acA h c2.after :=
  ⟨_, .step .new (by unfold c2; rfl) (by rw [c2_result]; nofun)⟩
theorem hist_d3 : ∃ h, Hist tinyEnv acB h d3.after :=
  hist_d1.elim fun _ h => ⟨_, .step h (by unfold d3; rfl) (by rw [d3_result]; nofun)⟩
theorem hist_c4 : ∃ h, Hist tinyEnv acA h c4.after :=
  hist_c2.elim fun _ h => ⟨_, .step h (by unfold c4; rfl) (by rw [c4_result]; nofun)⟩

/-! Bob, who answers whitespace tags and allows OTRv4 only, gets two texts with the tag of OTRv4. -/
def acT : Account := ⟨0x120, 0x102, [98], [97]⟩
def tagged4 : Bytes := WHITESPACE_PREFIX ++ WHITESPACE_TAG_OTRV4 ++ [104, 105]
@[irreducible] def t1 : Effect := (Op.receive tagged4).run tinyEnv acT (callB 1000 3) .new
@[irreducible] def t2 : Effect := (Op.receive tagged4).run tinyEnv acT (callB 1000 4) t1.after

/-! Bob gets a second query for OTRv4. -/
@[irreducible] def q2 : Effect := (Op.receive query4).run tinyEnv acB (callB 1000 4) d1.after

/-! After the exchange for OTRv4, Bob gets a query for OTRv3, and the clients go through that exchange. -/
@[irreducible] def e1 : Effect := (Op.receive query3).run tinyEnv acB (callB 1000 1) d3.after
@[irreducible] def f2 : Effect := (Op.receive (msg e1)).run tinyEnv acA (callA 1000 2) c4.after
@[irreducible] def e3 : Effect := (Op.receive (msg f2)).run tinyEnv acB (callB 1000 3) e1.after
@[irreducible] def f4 : Effect := (Op.receive (msg e3)).run tinyEnv acA (callA 1000 4) f2.after

theorem runT : matchFragment tagged4 = false ∧ parse tinyEnv tagged4 = .ok (.tagged [.v4] [104, 105]) ∧
    t1.result = .ok (.user (.plaintext [104, 105])) ∧ t2.result = .err .incorrectState ∧ t2.sent = [] := by
  decide +kernel
theorem runQ : q2.result = .err .incorrectState ∧ q2.sent = [] ∧ d1.result = .ok (.user .none) := by
  decide +kernel
theorem runE : e1.result = .ok (.user .none) ∧ f2.result = .ok (.user .none) ∧ e3.result = .ok (.user .none) ∧
    f4.result = .panic ∧ f2.after.status 0x102 = some .encrypted := by
  decide +kernel

/-! After the exchange for OTRv3, Alice ends the session, and Bob is told.  The same with OTRv4. -/
@[irreducible] def a8 : Effect := (Op.close 0x102).run tinyEnv acA (callA 1000 8) a4.after
@[irreducible] def b9 : Effect := (Op.receive (msg a8)).run tinyEnv acB (callB 1000 9) b5.after
@[irreducible] def d8 : Effect := (Op.close 0x100).run tinyEnv acB (callB 1000 8) d3.after
@[irreducible] def c9 : Effect := (Op.receive (msg d8)).run tinyEnv acA (callA 1000 9) c4.after

/-! After the exchange for OTRv4, sessions expire: at nanosecond 8, with a timeout of 0 or 1 second. -/
@[irreducible] def x0 : Effect := (Op.expire 0).run tinyEnv acB (callB 1000 8) d3.after
@[irreducible] def x1 : Effect := (Op.expire 1).run tinyEnv acB (callB 1000 8) d3.after

theorem runC : a8.result = .ok (.user (.reset 0x102)) ∧ a8.sent.length = 1 ∧
    b9.result = .ok (.user (.sessionFinished 0x100 [])) ∧
    d8.result = .ok (.user (.reset 0x100)) ∧ c9.result = .ok (.user (.sessionFinished 0x102 [])) ∧
    b9.after.status 0x100 = some .finished ∧ a8.after.status 0x102 = some .plaintext := by
  decide +kernel
theorem runX : x0.result = .ok .done ∧ x0.sent.length = 1 ∧ x0.after.status 0x100 = some .finished ∧
    x1.result = .ok .done ∧ x1.sent = [] ∧ x1.after.status 0x100 = some .encrypted := by
  decide +kernel

/-- A fragment, `?OTR|00000100|00000100,1,2,abc,`. -/
def piece : Bytes := [63, 79, 84, 82, 124, 48, 48, 48, 48, 48, 49, 48, 48, 124, 48, 48, 48, 48, 48, 49, 48, 48, 44, 49, 44, 50, 44, 97, 98, 99, 44]

theorem other' : matchFragment (msg b3) = false ∧
    (match parse tinyEnv (msg b3) with
      | .ok (.encoded m) => decide (m.sender ≠ 0 ∧ m.receiver ≠ 0 ∧ m.receiver ≠ acB.tag ∧ m.version = .v3)
      | _ => false) = true ∧
    matchFragment piece = true ∧
    (match parseFragment tinyEnv.nd piece with
      | .ok (some f) => decide (f.receiver ≠ 0 ∧ f.receiver ≠ acB.tag ∧ verifyFragment f = true)
      | _ => false) = true := by decide +kernel

theorem other_msg : ∃ m, parse tinyEnv (msg b3) = .ok (.encoded m) ∧ m.sender ≠ 0 ∧ m.receiver ≠ 0 ∧ m.receiver ≠ acB.tag ∧
    m.version = .v3 := by
  have h := other'.2.1
  split at h
  · rename_i m hm
    exact ⟨m, hm, of_decide_eq_true h⟩
  · cases h

theorem other : matchFragment (msg b3) = false ∧
    (∃ m, parse tinyEnv (msg b3) = .ok (.encoded m) ∧ m.sender ≠ 0 ∧ m.receiver ≠ 0 ∧ m.receiver ≠ acB.tag) ∧
    ∃ f, matchFragment piece = true ∧ parseFragment tinyEnv.nd piece = .ok (some f) ∧
      f.receiver ≠ 0 ∧ f.receiver ≠ acB.tag ∧ verifyFragment f = true := by
  refine ⟨other'.1, ?_, ?_⟩
  · obtain ⟨m, h1, h2, h3, h4, _⟩ := other_msg
    exact ⟨m, h1, h2, h3, h4⟩
  · have h := other'.2.2.2
    split at h
    · rename_i f hf
      exact ⟨f, other'.2.2.1, hf, of_decide_eq_true h⟩
    · cases h

theorem other3 : ∃ m, parse tinyEnv (msg b3) = .ok (.encoded m) ∧ m.version = .v3 :=
  other_msg.elim fun m h => ⟨m, h.1, h.2.2.2.2⟩

/-- Alice gets the Reveal Signature message in her first OTRv3 exchange. -/
theorem reveal' : matchFragment (msg b3) = false ∧
    (match parse tinyEnv (msg b3), lookup a2.after.instances 0x102 with
      | .ok (.encoded ⟨.v3, 0x102, 0x100, .revealSignature r⟩), some i => (match i.state, i.ake with
        | .plaintext, .awaitingRevealSignature kp _ _ => decide (tinyEnv.dh.g ≤ kp.pub ∧ kp.pub ≤ tinyEnv.dh.p - 2) &&
          (match AKE.handleRevealSignature tinyEnv (callA 1000 4).keypair r i.ake with
            | (.ok (_, reply), _) => (match serialize (.encoded ⟨.v3, 0x100, 0x102, reply⟩) with
              | .ok text => decide (text.length ≤ 1000)
              | _ => false)
            | _ => false)
        | _, _ => false)
      | _, _ => false) = true := by decide +kernel

/-- The data message of Bob changed by `f`. -/
def forge (f : DataMessage4 → DataMessage4) : Res Bytes :=
  match parse tinyEnv (text d6) with
  | .ok (.encoded ⟨.v4, s, r, .data4 d⟩) => serialize (.encoded ⟨.v4, s, r, .data4 (f d)⟩)
  | _ => .panic

/-- A data message without the D-H public key that it must have, and one with an authenticator that is all zero. -/
@[irreducible] def odd : Bytes := match forge fun d => { d with dh := .none } with
  | .ok t => t
  | _ => []
@[irreducible] def zeroed : Bytes := match forge fun d => { d with authenticator := List.replicate 64 0 } with
  | .ok t => t
  | _ => []

theorem forged : matchFragment odd = false ∧
    (match parse tinyEnv odd with
      | .ok (.encoded ⟨.v4, 0x102, 0x100, .data4 d⟩) => decide (d.validate tinyEnv = .err .protocolViolation)
      | _ => false) = true ∧
    matchFragment zeroed = false ∧
    (match parse tinyEnv zeroed with
      | .ok (.encoded ⟨.v4, 0x102, 0x100, .data4 d⟩) => decide (d.validate tinyEnv = .panic)
      | _ => false) = true := by decide +kernel

end Otrr.Spec.ToySession
