import Verif.Lemmas.SessionToy
import Verif.Spec.SessionData
/-! # Concrete sessions in which the peers run the SMP, for the examples -/

namespace Otrr.Spec.ToySession
open Otrr Otrr.Spec

/-- Small values of SHA-256 too, which are used as exponents. -/
def smpEnv : Env := { tinyEnv with
  sha256 := fun d => List.replicate 31 0 ++ [(toyHash 1 d).getD 0 0]
  sha256_len := fun d => by simp }

/-! OTRv3: key exchange, then Alice starts the SMP with a question. -/
@[irreducible] def g1 : Effect := (Op.receive query3).run smpEnv acB (callB 1000 1) .new
@[irreducible] def h2 : Effect := (Op.receive (msg g1)).run smpEnv acA (callA 1000 2) .new
@[irreducible] def g3 : Effect := (Op.receive (msg h2)).run smpEnv acB (callB 1000 3) g1.after
@[irreducible] def h4 : Effect := (Op.receive (msg g3)).run smpEnv acA (callA 1000 4) h2.after
@[irreducible] def g5 : Effect := (Op.receive (msg h4)).run smpEnv acB (callB 1000 5) g3.after
@[irreducible] def h6 : Effect := (Op.startSmp 0x102 [1] [113]).run smpEnv acA (callA 1000 1) h4.after
@[irreducible] def g7 : Effect := (Op.receive (msg h6)).run smpEnv acB (callB 1000 4) g5.after
@[irreducible] def h8 : Effect := (Op.receive (msg g7)).run smpEnv acA (callA 1000 1) h6.after
@[irreducible] def g9 : Effect := (Op.receive (msg h8)).run smpEnv acB (callB 1000 1) g7.after
@[irreducible] def h10 : Effect := (Op.receive (msg g9)).run smpEnv acA (callA 1000 12) h8.after
/-- Instead of answering, Bob aborts. -/
@[irreducible] def g11 : Effect := (Op.abortSmp 0x100).run smpEnv acB (callB 1000 2) g7.after
@[irreducible] def h12 : Effect := (Op.receive (msg g11)).run smpEnv acA (callA 1000 2) h6.after

/-- The message in a text. -/
def parsed (E : Env) (t : Bytes) : Option EncodedMessage :=
  match parse E t with
  | .ok (.encoded m) => some m
  | _ => .none

/-- The OTRv3 data message in a text from `k` to `r`, if it is decrypted in the state `s`: the TLVs in it. -/
def opened (E : Env) (c : Call) (t : Bytes) (k r : UInt32) : PState → Option (Bytes × List TLV × PState)
  | .encrypted3 x smp =>
    match parsed E t with
    | some ⟨.v3, k', r', .data d⟩ =>
      if k' = k ∧ r' = r then
        match Enc3.handle E d (authenticatorData 3 k r d) (c.rnd.bytes [0] 192) x with
        | (.ok (.confidential a l, false), x') => some (a, l, .encrypted3 x' smp)
        | _ => .none
      else .none
    | _ => .none
  | _ => .none

/-- The OTRv3 data message in a text from `k` to `r` cannot be decrypted in the state `s`, because of its content. -/
def unread (E : Env) (c : Call) (t : Bytes) (k r : UInt32) : PState → Bool
  | .encrypted3 x _ =>
    match parsed E t with
    | some ⟨.v3, k', r', .data d⟩ => k' == k && r' == r &&
      match (Enc3.handle E d (authenticatorData 3 k r d) (c.rnd.bytes [0] 192) x).1 with
      | .err (.unreadableMessage _) => true
      | _ => false
    | _ => false
  | _ => false

/-- A data message of Alice with two SMP TLVs. -/
@[irreducible] def twice : Bytes :=
  match stateOf h4.after 0x102 with
  | .encrypted3 x _ =>
    match (Enc3.encrypt smpEnv 0 [0, 0, 6, 0, 0, 0, 6, 0, 0] x).1 with
    | .ok d => match serialize (.encoded ⟨.v3, 0x100, 0x102, .data d⟩) with
      | .ok t => t
      | _ => []
    | _ => []
  | _ => []

set_option maxRecDepth 100000 in
theorem runSmp3 :
    (g1.result = .ok (.user .none) ∧ h2.result = .ok (.user .none) ∧ g3.result = .ok (.user .none) ∧
    h4.result = .ok (.user (.sessionStarted 0x102)) ∧ g5.result = .ok (.user (.sessionStarted 0x100)) ∧
    h6.result = .ok .done ∧ g7.result = .ok (.user .none) ∧ h8.result = .ok (.user .none) ∧
    g9.result = .ok (.user (.smpSucceeded 0x100)) ∧ h10.result = .ok (.user (.smpSucceeded 0x102)) ∧
    g11.result = .ok .done ∧ h12.result = .ok (.user (.smpFailed 0x102))) ∧
    (h4.after.status 0x102 = some .encrypted ∧ h6.after.status 0x102 = some .encrypted ∧ g7.after.status 0x100 = some .encrypted ∧
    matchFragment (msg h6) = false ∧ matchFragment twice = false ∧
    (opened smpEnv (callB 1000 4) (msg h6) 0x100 0x102 (stateOf g5.after 0x100)).map (fun p => p.2.1.map (·.typ)) = some [7] ∧
    (opened smpEnv (callB 1000 4) twice 0x100 0x102 (stateOf g5.after 0x100)).map (fun p => p.2.1.map (·.typ)) = some [6, 6] ∧
    matchFragment (twice.set 60 66) = false ∧ unread smpEnv (callB 1000 9) (twice.set 60 66) 0x100 0x102 (stateOf g5.after 0x100) = true) := by decide +kernel

theorem hist_g1 : ∃ h, Hist smpEnv acB h g1.after :=
  ⟨_, .step .new (by unfold g1; rfl) (by rw [runSmp3.1.1]; nofun)⟩
theorem hist_h2 : ∃ h, Hist smpEnv acA h h2.after :=
  ⟨_, .step .new (by unfold h2; rfl) (by rw [runSmp3.1.2.1]; nofun)⟩
theorem hist_g3 : ∃ h, Hist smpEnv acB h g3.after :=
  hist_g1.elim fun _ h => ⟨_, .step h (by unfold g3; rfl) (by rw [runSmp3.1.2.2.1]; nofun)⟩
theorem hist_h4 : ∃ h, Hist smpEnv acA h h4.after :=
  hist_h2.elim fun _ h => ⟨_, .step h (by unfold h4; rfl) (by rw [runSmp3.1.2.2.2.1]; nofun)⟩
theorem hist_g5 : ∃ h, Hist smpEnv acB h g5.after :=
  hist_g3.elim fun _ h => ⟨_, .step h (by unfold g5; rfl) (by rw [runSmp3.1.2.2.2.2.1]; nofun)⟩
theorem hist_h6 : ∃ h, Hist smpEnv acA h h6.after :=
  hist_h4.elim fun _ h => ⟨_, .step h (by unfold h6; rfl) (by rw [runSmp3.1.2.2.2.2.2.1]; nofun)⟩
theorem hist_g7 : ∃ h, Hist smpEnv acB h g7.after :=
  hist_g5.elim fun _ h => ⟨_, .step h (by unfold g7; rfl) (by rw [runSmp3.1.2.2.2.2.2.2.1]; nofun)⟩
theorem hist_h8 : ∃ h, Hist smpEnv acA h h8.after :=
  hist_h6.elim fun _ h => ⟨_, .step h (by unfold h8; rfl) (by rw [runSmp3.1.2.2.2.2.2.2.2.1]; nofun)⟩

theorem parsed_some {E : Env} {t : Bytes} {m : EncodedMessage} (h : parsed E t = some m) : parse E t = .ok (.encoded m) := by
  unfold parsed at h
  split at h
  · rename_i hp; cases h; exact hp
  · cases h

theorem opened_some {E : Env} {c : Call} {t : Bytes} {k r : UInt32} {s s' : PState} {a : Bytes} {l : List TLV}
    (h : opened E c t k r s = some (a, l, s')) :
    ∃ d, parse E t = .ok (.encoded ⟨.v3, k, r, .data d⟩) ∧ DecryptsTo E c ⟨.v3, k, r, .data d⟩ s (.confidential a l) s' := by
  unfold opened at h
  split at h
  · rename_i x smp
    split at h
    · rename_i k' r' d hp
      split at h
      · rename_i hkr
        obtain ⟨rfl, rfl⟩ := hkr
        split at h
        · rename_i a' l' x' hx
          simp only [Option.some.injEq, Prod.mk.injEq] at h
          obtain ⟨rfl, rfl, rfl⟩ := h
          exact ⟨d, parsed_some hp, .inl ⟨x, smp, d, x', false, rfl, rfl, rfl, hx, rfl⟩⟩
        · cases h
      · cases h
    · cases h
  · cases h

theorem unread_true {E : Env} {c : Call} {t : Bytes} {k r : UInt32} {s : PState} (h : unread E c t k r s = true) :
    s.status = .encrypted ∧ ∃ d, parse E t = .ok (.encoded ⟨.v3, k, r, .data d⟩) ∧ Unreadable E c ⟨.v3, k, r, .data d⟩ s := by
  unfold unread at h
  split at h
  · rename_i x smp
    refine ⟨rfl, ?_⟩
    split at h
    · rename_i k' r' d hp
      simp only [Bool.and_eq_true, beq_iff_eq] at h
      obtain ⟨⟨rfl, rfl⟩, h⟩ := h
      split at h
      · rename_i u hx
        exact ⟨d, parsed_some hp, .inl ⟨d, rfl, rfl, fun y smp hs => by cases hs; exact ⟨u, hx⟩⟩⟩
      · cases h
    · cases h
  · cases h

end Otrr.Spec.ToySession
